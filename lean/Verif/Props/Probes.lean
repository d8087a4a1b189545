import Verif.Lemmas.Probes

/-!
# Probe data (C48)
-/

namespace Cfd.Probes
open Cfd.Spec.Probes

variable {F : Type}

/-- A variable is only computed from variables of lower rank. -/
theorem rank_lt (var : String) (ds : List String) (h : dependencyVars.get? var = some ds) :
    ∀ d ∈ ds, rank d < rank var := by
  have h1 := maxRank_deps h
  have : ∀ l : List String, ∀ d ∈ l, rank d ≤ maxRank l := by
    intro l
    induction l with
    | nil => intro d hd; cases hd
    | cons a t ih =>
      intro d hd
      simp only [maxRank]
      rcases List.mem_cons.1 hd with rfl | hd
      · omega
      · have := ih d hd; omega
  intro d hd
  have := this ds d hd
  omega

/-- **C48, termination.** The recursion of `check_data` goes down: the variables can be ranked so that each one is only
computed from variables of lower rank (this is also what makes the definition of `checkData` total). -/
theorem C48_acyclic : (∀ var, dependencyVars.get? var = if needs var = [] then none else some (needs var)) ∧
    ∃ r : String → Nat, ∀ var, ∀ d ∈ needs var, r d < r var := by
  refine ⟨needs_deps, rank, fun var d hd => ?_⟩
  have hne : needs var ≠ [] := List.ne_nil_of_mem hd
  exact rank_lt var (needs var) (by rw [needs_deps, if_neg hne]) d hd

/-- What the state contains at any time: what was loaded, and values of variables. -/
structure Good (N : PhyNum F) (loaded : Data F) (file : String → Option (Raw F)) (d : Data F) : Prop where
  keeps : Keeps loaded d
  values : ∀ k v, d.get? k = some v → k ≠ "time" → HasValue N loaded file k v

theorem keeps_set {d : Data F} {var : String} {v : Val F} (h : var ∉ d.keys) : Keeps d (d.set var v) := by
  intro k w hk
  rw [Dict.get?_set_ne _ _ (by
    rintro rfl
    exact h (Dict.mem_keys_iff.2 ⟨_, hk⟩))]
  exact hk

theorem keeps_trans {a b c : Data F} (h : Keeps a b) (h' : Keeps b c) : Keeps a c := fun k v hk => h' k v (h k v hk)

theorem good_set {N : PhyNum F} {loaded : Data F} {file : String → Option (Raw F)} {d : Data F} (h : Good N loaded file d)
    {var : String} {v : Val F} (hn : var ∉ d.keys) (hv : HasValue N loaded file var v) :
    Good N loaded file (d.set var v) := by
  refine ⟨keeps_trans h.keeps (keeps_set hn), ?_⟩
  intro k w hk hkt
  rw [Dict.get?_set] at hk
  split at hk
  · rename_i e
    subst e
    obtain rfl := Option.some.inj hk
    exact hv
  · exact h.values k w hk hkt

/-- Reading the file of a variable that is not there. -/
theorem readData_ok {N : PhyNum F} {loaded : Data F} {fs : String → Option (Raw F)} {pre : String} {sh : Shape}
    (hc : Consistent N loaded (fun k => fs (pre ++ "." ++ k)) sh) {d : Data F}
    (hg : Good N loaded (fun k => fs (pre ++ "." ++ k)) d) {var : String} (hn : var ∉ d.keys) (r : Raw F)
    (hr : fs (pre ++ "." ++ var) = some r) :
    ∃ d' v, readData N fs pre var (decide (var ∈ ["X", "Y", "Z"])) d = (.ok true, d') ∧ d'.get? var = some v ∧
      HasValue N loaded (fun k => fs (pre ++ "." ++ k)) var v ∧ Keeps d d' ∧
      Good N loaded (fun k => fs (pre ++ "." ++ k)) d' := by
  have hl : loaded.get? var = none := by
    cases h : loaded.get? var with
    | none => rfl
    | some v => exact absurd (Dict.mem_keys_iff.2 ⟨_, hg.keeps var v h⟩) hn
  obtain ⟨v, hv, hs, hsh⟩ := hc.files var r hr
  have hval : HasValue N loaded (fun k => fs (pre ++ "." ++ k)) var v := .file var r v hl hr hv
  have hcoord : var ∈ ["X", "Y", "Z"] ↔ isCoordinate var := by simp [isCoordinate]
  have hk := keeps_set (v := v) hn
  have hgs := good_set hg hn hval
  unfold readData
  rw [hr]
  cases r with
  | scalar x => simp [fileVal] at hv
  | arr a =>
    cases a with
    | vec l =>
      simp only [fileVal, Option.some.injEq] at hv
      subst hv
      exact ⟨_, _, rfl, Dict.get?_set_self _ _ _, hval, hk, hgs⟩
    | mat rows =>
      simp only [fileVal] at hv
      rw [show decide (var ∈ ["X", "Y", "Z"]) = decide (isCoordinate var) from decide_eq_decide.2 hcoord]
      simp only [decide_eq_true_eq]
      by_cases hcv : isCoordinate var
      · rw [if_pos hcv] at hv
        rw [if_pos hcv]
        cases rows with
        | nil => cases hv
        | cons r0 t =>
          simp only [List.head?_cons, Option.map_some, Option.some.injEq] at hv
          subst hv
          simp only
          rw [if_pos (hc.steady var _ hr hcv)]
          exact ⟨_, _, rfl, Dict.get?_set_self _ _ _, hval, hk, hgs⟩
      · rw [if_neg hcv, Option.some.injEq] at hv
        subst hv
        rw [if_neg hcv]
        by_cases ht : "time" ∈ (d.set var (.mat (rows.map (·.drop 3)))).keys
        · rw [if_pos ht]
          exact ⟨_, _, rfl, Dict.get?_set_self _ _ _, hval, hk, hgs⟩
        · rw [if_neg ht]
          have hlen : ∀ r ∈ rows, 2 ≤ r.length := by
            have := hsh hcv
            cases sh with
            | vec n => exact absurd this id
            | mat m n =>
              obtain ⟨h1, h2⟩ := this
              obtain ⟨g1, g2⟩ := hc.nonempty
              intro r hrm
              have := h2 (r.drop 3) (List.mem_map.2 ⟨r, hrm, rfl⟩)
              rw [List.length_drop] at this
              omega
          obtain ⟨t, hm⟩ : ∃ t, rows.mapM (fun r => npGet r (1 : Int)) = .ok t := by
            clear hr hval hk hgs hsh hs ht
            induction rows with
            | nil => exact ⟨[], rfl⟩
            | cons a l ih =>
              obtain ⟨t, ht⟩ := ih fun r hrm => hlen r (List.mem_cons_of_mem _ hrm)
              have hal := hlen a (by simp)
              refine ⟨a[1] :: t, ?_⟩
              rw [List.mapM_cons, show (1 : Int) = ((1 : Nat) : Int) from rfl, npGet_of_lt (by omega)]
              simp only [Except_bind_ok]
              rw [show ((1 : Nat) : Int) = 1 from rfl, ht]
              rfl
          rw [hm]
          have hvt : var ≠ "time" := by
            rintro rfl
            exact ht (Dict.mem_keys_iff.2 ⟨_, Dict.get?_set_self _ _ _⟩)
          refine ⟨_, _, rfl, ?_, hval, keeps_trans hk (keeps_set ht), ⟨keeps_trans hgs.keeps (keeps_set ht), ?_⟩⟩
          · rw [Dict.get?_set_ne _ _ hvt]
            exact Dict.get?_set_self _ _ _
          · intro k w hkw hkt
            rw [Dict.get?_set_ne _ _ hkt] at hkw
            exact hgs.values k w hkw hkt

theorem finish_ok {var : String} {d : Data F} {v : Val F} (h : d.get? var = some v) (hs : v.stats = .ok ()) :
    finish var d = (.ok true, d) := by
  unfold finish
  rw [Dict.getE_eq_ok.2 h]
  simp only [Except_bind_ok, hs]

/-- `check_data` from any state reached so far. -/
theorem check_ok {N : PhyNum F} {loaded : Data F} {fs : String → Option (Raw F)} {pre : String} {sh : Shape}
    (hc : Consistent N loaded (fun k => fs (pre ++ "." ++ k)) sh) (n : Nat) :
    ∀ var, rank var < n → ∀ d, Good N loaded (fun k => fs (pre ++ "." ++ k)) d → (var ≠ "time" ∨ d = loaded) →
      (Available loaded (fun k => fs (pre ++ "." ++ k)) var →
        ∃ d' v, checkData N fs pre var d = (.ok true, d') ∧ Keeps d d' ∧
          Good N loaded (fun k => fs (pre ++ "." ++ k)) d' ∧ d'.get? var = some v ∧
          HasValue N loaded (fun k => fs (pre ++ "." ++ k)) var v) ∧
      (¬ Available loaded (fun k => fs (pre ++ "." ++ k)) var →
        ∃ d', checkData N fs pre var d = (.error .name, d') ∧ Keeps d d' ∧
          Good N loaded (fun k => fs (pre ++ "." ++ k)) d') := by
  induction n with
  | zero => intro var h; omega
  | succ n ih =>
    intro var hrank d hg hvt
    by_cases hin : var ∈ d.keys
    · -- already there
      obtain ⟨v, hv⟩ := Dict.mem_keys_iff.1 hin
      have hval : HasValue N loaded (fun k => fs (pre ++ "." ++ k)) var v := by
        rcases hvt with h | rfl
        · exact hg.values var v hv h
        · exact .loaded var v hv
      constructor
      · intro _
        refine ⟨d, v, ?_, fun _ _ h => h, hg, hv, hval⟩
        rw [checkData, loadData, if_pos hin]
        exact finish_ok hv (shape_of_value hc hval).1
      · intro h
        exact absurd (available_of_value hval) h
    · have hl : loaded.get? var = none := by
        cases h : loaded.get? var with
        | none => rfl
        | some v => exact absurd (Dict.mem_keys_iff.2 ⟨_, hg.keeps var v h⟩) hin
      cases hr : fs (pre ++ "." ++ var) with
      | some r =>
        obtain ⟨d', v, e, h1, h2, h3, h4⟩ := readData_ok hc hg hin r hr
        constructor
        · intro _
          refine ⟨d', v, ?_, h3, h4, h1, h2⟩
          rw [checkData, loadData, if_neg hin, e]
          exact finish_ok h1 (shape_of_value hc h2).1
        · intro h
          exact absurd (.file var r hr) h
      | none =>
        have hread : readData N fs pre var (decide (var ∈ ["X", "Y", "Z"])) d = (.ok false, d) := by
          unfold readData
          rw [hr]
        by_cases hne : needs var = []
        · constructor
          · intro h
            exfalso
            cases h with
            | loaded _ v h => rw [hl] at h; cases h
            | file _ r h => simp only [hr] at h; cases h
            | computed _ h _ => exact h hne
          · intro _
            refine ⟨d, ?_, fun _ _ h => h, hg⟩
            rw [checkData, loadData, if_neg hin, hread]
            simp only
            have := needs_deps var
            rw [if_pos hne] at this
            split
            · rfl
            · rename_i ds h
              rw [this] at h; cases h
        · have hdeps : dependencyVars.get? var = some (needs var) := by
            rw [needs_deps, if_neg hne]
          have hlow := rank_lt var _ hdeps
          -- the dependencies, one after the other
          have hlist : ∀ l : List String, (∀ k ∈ l, k ∈ needs var) → ∀ d, Good N loaded (fun k => fs (pre ++ "." ++ k)) d →
              ((∀ k ∈ l, Available loaded (fun k => fs (pre ++ "." ++ k)) k) →
                ∃ d', checkDeps N fs pre l d = (.ok true, d') ∧ Keeps d d' ∧
                  Good N loaded (fun k => fs (pre ++ "." ++ k)) d' ∧ ∀ k ∈ l, ∃ v, d'.get? k = some v) ∧
              ((¬ ∀ k ∈ l, Available loaded (fun k => fs (pre ++ "." ++ k)) k) →
                ∃ d', checkDeps N fs pre l d = (.error .name, d') ∧ Keeps d d' ∧
                  Good N loaded (fun k => fs (pre ++ "." ++ k)) d') := by
            intro l
            induction l with
            | nil =>
              intro _ d hg
              constructor
              · intro _
                exact ⟨d, by rw [checkDeps], fun _ _ h => h, hg, by simp⟩
              · intro h
                exact absurd (by simp) h
            | cons a t iht =>
              intro hl d hg
              have ha := hl a (by simp)
              obtain ⟨c1, c2⟩ := ih a (by have := hlow a ha; omega) d hg (.inl (needs_plain ha).2)
              by_cases hav : Available loaded (fun k => fs (pre ++ "." ++ k)) a
              · obtain ⟨d1, v, e, k1, g1, hv, -⟩ := c1 hav
                obtain ⟨t1, t2⟩ := iht (fun k hk => hl k (List.mem_cons_of_mem _ hk)) d1 g1
                constructor
                · intro h
                  obtain ⟨d2, e2, k2, g2, h2⟩ := t1 fun k hk => h k (List.mem_cons_of_mem _ hk)
                  refine ⟨d2, ?_, keeps_trans k1 k2, g2, ?_⟩
                  · rw [checkDeps, e]
                    simp only [e2]
                    rfl
                  · intro k hk
                    rcases List.mem_cons.1 hk with rfl | hk
                    · exact ⟨v, k2 _ _ hv⟩
                    · exact h2 k hk
                · intro h
                  obtain ⟨d2, e2, k2, g2⟩ := t2 (by
                    intro hall
                    apply h
                    intro k hk
                    rcases List.mem_cons.1 hk with rfl | hk
                    · exact hav
                    · exact hall k hk)
                  refine ⟨d2, ?_, keeps_trans k1 k2, g2⟩
                  rw [checkDeps, e]
                  simp only [e2]
              · obtain ⟨d1, e, k1, g1⟩ := c2 hav
                constructor
                · intro h
                  exact absurd (h a (by simp)) hav
                · intro _
                  refine ⟨d1, ?_, k1, g1⟩
                  rw [checkDeps, e]
          obtain ⟨l1, l2⟩ := hlist (needs var) (fun k hk => hk) d hg
          have hunf : checkData N fs pre var d = match checkDeps N fs pre (needs var) d with
              | (.error e, d) => (.error e, d)
              | (.ok false, d) => (.error .name, d)
              | (.ok true, d) =>
                  match computeVarname N var d with
                  | .ok d => finish var d
                  | .error e => (.error e, d) := by
            rw [checkData, loadData, if_neg hin, hread]
            simp only
            split
            · rename_i h; rw [hdeps] at h; cases h
            · rename_i ds h
              rw [hdeps] at h
              obtain rfl := Option.some.inj h
              rfl
          constructor
          · intro h
            have hav : ∀ k ∈ needs var, Available loaded (fun k => fs (pre ++ "." ++ k)) k := by
              cases h with
              | loaded _ v h => rw [hl] at h; cases h
              | file _ r h => simp only [hr] at h; cases h
              | computed _ _ h => exact h
            obtain ⟨d1, e, k1, g1, h1⟩ := l1 hav
            have hval : ∀ k ∈ needs var, HasValue N loaded (fun k => fs (pre ++ "." ++ k)) k ((d1.get? k).getD (.vec [])) := by
              intro k hk
              obtain ⟨v, hv⟩ := h1 k hk
              rw [hv]
              exact g1.values k v hv (needs_plain hk).2
            have hshv : ∀ k ∈ needs var, HasShape sh ((d1.get? k).getD (.vec [])) := fun k hk =>
              (shape_of_value hc (hval k hk)).2 (needs_plain hk).1 (needs_plain hk).2
            obtain ⟨v, ev, sv, fv⟩ := compute_ok N var hne d1 sh (fun k => (d1.get? k).getD (.vec []))
              (fun k hk => by
                obtain ⟨w, hw⟩ := h1 k hk
                rw [hw]; rfl) hshv
            have hv : HasValue N loaded (fun k => fs (pre ++ "." ++ k)) var v :=
              .computed var v sh _ hl hr hne hval sv hshv fv
            have hks : Keeps d1 (d1.set var v) := by
              intro k w hk
              by_cases e : k = var
              · subst e
                rw [Dict.get?_set_self, value_unique hc hv w (g1.values k w hk (needs_self hne).2)]
              · rw [Dict.get?_set_ne _ _ e]; exact hk
            refine ⟨d1.set var v, v, ?_, keeps_trans k1 hks, ⟨keeps_trans g1.keeps hks, ?_⟩, Dict.get?_set_self _ _ _, hv⟩
            · rw [hunf, e]
              simp only [ev]
              exact finish_ok (Dict.get?_set_self _ _ _) (shape_of_value hc hv).1
            · intro k w hk hkt
              rw [Dict.get?_set] at hk
              split at hk
              · rename_i e
                subst e
                obtain rfl := Option.some.inj hk
                exact hv
              · exact g1.values k w hk hkt
          · intro h
            obtain ⟨d1, e, k1, g1⟩ := l2 fun hall => h (.computed var hne hall)
            refine ⟨d1, ?_, k1, g1⟩
            rw [hunf, e]

theorem good_self {N : PhyNum F} {loaded : Data F} {file : String → Option (Raw F)} : Good N loaded file loaded :=
  ⟨fun _ _ h => h, fun k v h _ => .loaded k v h⟩

/-- **C48.** `check_data(var)` succeeds when the variable is loaded, has a file, or all the variables it depends on are
available; it is then in the dictionary with its value, and nothing loaded before has changed. -/
theorem C48_success (N : PhyNum F) (fs : String → Option (Raw F)) (pre var : String) (d : Data F) (sh : Shape)
    (hc : Consistent N d (fun k => fs (pre ++ "." ++ k)) sh)
    (ha : Available d (fun k => fs (pre ++ "." ++ k)) var) :
    ∃ d' v, checkData N fs pre var d = (.ok true, d') ∧ Keeps d d' ∧ d'.get? var = some v ∧
      HasValue N d (fun k => fs (pre ++ "." ++ k)) var v := by
  obtain ⟨d', v, h1, h2, -, h3, h4⟩ := (check_ok hc (rank var + 1) var (by omega) d good_self (.inr rfl)).1 ha
  exact ⟨d', v, h1, h2, h3, h4⟩

/-- **C48, failure.** Otherwise it raises `NameError`, and nothing loaded before has changed. -/
theorem C48_failure (N : PhyNum F) (fs : String → Option (Raw F)) (pre var : String) (d : Data F) (sh : Shape)
    (hc : Consistent N d (fun k => fs (pre ++ "." ++ k)) sh)
    (ha : ¬ Available d (fun k => fs (pre ++ "." ++ k)) var) :
    ∃ d', checkData N fs pre var d = (.error .name, d') ∧ Keeps d d' := by
  obtain ⟨d', h1, h2, -⟩ := (check_ok hc (rank var + 1) var (by omega) d good_self (.inr rfl)).2 ha
  exact ⟨d', h1, h2⟩

/-- **C48, everything in the dictionary has its value**, also what was added on the way to a failure. -/
theorem C48_values (N : PhyNum F) (fs : String → Option (Raw F)) (pre var : String) (d : Data F) (sh : Shape)
    (hc : Consistent N d (fun k => fs (pre ++ "." ++ k)) sh) (k : String) (v : Val F) (hk : k ≠ "time")
    (h : (checkData N fs pre var d).2.get? k = some v) : HasValue N d (fun k => fs (pre ++ "." ++ k)) k v := by
  obtain ⟨h1, h2⟩ := check_ok hc (rank var + 1) var (by omega) d good_self (.inr rfl)
  by_cases ha : Available d (fun k => fs (pre ++ "." ++ k)) var
  · obtain ⟨d', w, e, -, hg, -⟩ := h1 ha
    rw [e] at h
    exact hg.values k v h hk
  · obtain ⟨d', e, -, hg⟩ := h2 ha
    rw [e] at h
    exact hg.values k v h hk

/-- The value of a variable is determined by the files and the dictionary. -/
theorem C48_value_unique (N : PhyNum F) (loaded : Data F) (file : String → Option (Raw F)) (sh : Shape)
    (hc : Consistent N loaded file sh) (var : String) (v w : Val F) (hv : HasValue N loaded file var v)
    (hw : HasValue N loaded file var w) : v = w := value_unique hc hv w hw

theorem finish_inv {var : String} {d d' : Data F} {b : Bool} (h : finish var d = (.ok b, d')) :
    d' = d ∧ b = true ∧ var ∈ d.keys ∧ finish var d = (.ok true, d) := by
  unfold finish at h ⊢
  split at h
  · rename_i u hu
    simp only [Prod.mk.injEq, Except.ok.injEq] at h
    obtain ⟨h1, h2⟩ := h
    obtain ⟨v, hv, -⟩ := bind_eq_ok.1 hu
    exact ⟨h2.symm, h1.symm, Dict.mem_keys_iff.2 ⟨v, Dict.getE_eq_ok.1 hv⟩, by simp only⟩
  · cases h

/-- **C48, again.** Whatever the files, a second call after a success changes nothing and succeeds. -/
theorem C48_again (N : PhyNum F) (fs fs' : String → Option (Raw F)) (pre pre' var : String) (d d' : Data F) (b : Bool)
    (h : checkData N fs pre var d = (.ok b, d')) : b = true ∧ checkData N fs' pre' var d' = (.ok true, d') := by
  have key : ∃ d1, finish var d1 = (.ok b, d') := by
    rw [checkData] at h
    split at h
    · simp only [Prod.mk.injEq, reduceCtorEq, false_and] at h
    · exact ⟨_, h⟩
    · split at h
      · simp only [Prod.mk.injEq, reduceCtorEq, false_and] at h
      · split at h
        · simp only [Prod.mk.injEq, reduceCtorEq, false_and] at h
        · simp only [Prod.mk.injEq, reduceCtorEq, false_and] at h
        · split at h
          · exact ⟨_, h⟩
          · simp only [Prod.mk.injEq, reduceCtorEq, false_and] at h
  obtain ⟨d1, h1⟩ := key
  obtain ⟨rfl, rfl, hk, hf⟩ := finish_inv h1
  refine ⟨rfl, ?_⟩
  rw [checkData, loadData, if_pos hk]
  exact hf

/-- What is in the dictionary is available, the time apart. -/
def OnlyAvailable (loaded : Data F) (file : String → Option (Raw F)) (d : Data F) : Prop :=
  ∀ k ∈ d.keys, k ≠ "time" → Available loaded file k

theorem only_set {loaded d : Data F} {file : String → Option (Raw F)} {k : String} (v : Val F) (h : OnlyAvailable loaded file d)
    (hk : k ≠ "time" → Available loaded file k) : OnlyAvailable loaded file (d.set k v) := by
  intro j hj hjt
  by_cases e : j = k
  · subst e; exact hk hjt
  · refine h j ?_ hjt
    rw [Dict.mem_keys_iff] at hj ⊢
    rw [Dict.get?_set_ne _ _ e] at hj
    exact hj

/-- Reading a variable, whatever is in the file. -/
theorem readData_any (N : PhyNum F) (fs : String → Option (Raw F)) (pre var : String) (force : Bool) {loaded d : Data F}
    (hin : var ∉ d.keys) (hd : OnlyAvailable loaded (fun k => fs (pre ++ "." ++ k)) d) :
    Keeps d (readData N fs pre var force d).2 ∧
      OnlyAvailable loaded (fun k => fs (pre ++ "." ++ k)) (readData N fs pre var force d).2 := by
  unfold readData
  cases hr : fs (pre ++ "." ++ var) with
  | none => exact ⟨fun _ _ h => h, hd⟩
  | some r =>
    have hset : ∀ v, Keeps d (d.set var v) ∧ OnlyAvailable loaded (fun k => fs (pre ++ "." ++ k)) (d.set var v) :=
      fun v => ⟨keeps_set hin, only_set v hd fun _ => .file var r hr⟩
    cases r with
    | scalar x => exact ⟨fun _ _ h => h, hd⟩
    | arr a =>
      cases a with
      | vec l => exact hset _
      | mat rows =>
        simp only
        split
        · cases rows with
          | nil => exact ⟨fun _ _ h => h, hd⟩
          | cons r t =>
            simp only
            split <;> exact hset _
        · split
          · exact hset _
          · rename_i ht
            split
            · exact ⟨keeps_trans (hset _).1 (keeps_set ht), only_set _ (hset _).2 fun h => absurd rfl h⟩
            · exact hset _

theorem compute_set {N : PhyNum F} {var : String} {d d' : Data F} (h : computeVarname N var d = .ok d') :
    ∃ v, d' = d.set var v := by
  unfold computeVarname at h
  split at h
  · subst_vars
    unfold computeU at h
    simp only [bind_eq_ok, Except_pure, Except.ok.injEq] at h
    obtain ⟨_, _, _, _, _, _, _, _, _, _, rfl⟩ := h
    exact ⟨_, rfl⟩
  split at h
  · subst_vars
    unfold computeMach at h
    simp only [bind_eq_ok, Except_pure, Except.ok.injEq] at h
    obtain ⟨_, _, _, _, _, _, rfl⟩ := h
    exact ⟨_, rfl⟩
  split at h
  · subst_vars
    unfold computeAsound at h
    simp only [bind_eq_ok, Except_pure, Except.ok.injEq] at h
    obtain ⟨_, _, _, _, _, _, rfl⟩ := h
    exact ⟨_, rfl⟩
  split at h
  · subst_vars
    unfold computeInvxp at h
    simp only [bind_eq_ok, Except_pure, Except.ok.injEq] at h
    obtain ⟨_, _, _, _, _, _, rfl⟩ := h
    exact ⟨_, rfl⟩
  split at h
  · subst_vars
    unfold computeInvxm at h
    simp only [bind_eq_ok, Except_pure, Except.ok.injEq] at h
    obtain ⟨_, _, _, _, _, _, rfl⟩ := h
    exact ⟨_, rfl⟩
  split at h
  · subst_vars
    unfold computeEntropy at h
    simp only [bind_eq_ok, Except_pure, Except.ok.injEq] at h
    obtain ⟨_, _, _, _, _, _, rfl⟩ := h
    exact ⟨_, rfl⟩
  · cases h

theorem finish_state (var : String) (d : Data F) : (finish var d).2 = d := by
  unfold finish
  split <;> rfl

theorem needs_time (var : String) : "time" ∉ needs var := by
  unfold needs
  repeat' split
  all_goals decide

/-- `check_data` whatever the files. -/
theorem check_any {N : PhyNum F} {loaded : Data F} {fs : String → Option (Raw F)} {pre : String} (n : Nat) :
    ∀ var, rank var < n → ∀ d, OnlyAvailable loaded (fun k => fs (pre ++ "." ++ k)) d →
      Keeps d (checkData N fs pre var d).2 ∧ OnlyAvailable loaded (fun k => fs (pre ++ "." ++ k)) (checkData N fs pre var d).2 ∧
      ∀ b, (checkData N fs pre var d).1 = .ok b → var ∈ (checkData N fs pre var d).2.keys := by
  induction n with
  | zero => intro var h; omega
  | succ n ih =>
    intro var hrank d hd
    by_cases hin : var ∈ d.keys
    · rw [checkData, loadData, if_pos hin]
      simp only
      rw [finish_state]
      exact ⟨fun _ _ h => h, hd, fun _ _ => hin⟩
    · have hread := readData_any N fs pre var (decide (var ∈ ["X", "Y", "Z"])) hin hd
      rw [checkData, loadData, if_neg hin]
      cases hr : readData N fs pre var (decide (var ∈ ["X", "Y", "Z"])) d with
      | mk r d1 =>
        rw [hr] at hread
        cases r with
        | error e => exact ⟨hread.1, hread.2, fun b h => by cases h⟩
        | ok b =>
          cases b with
          | true =>
            simp only
            rw [finish_state]
            refine ⟨hread.1, hread.2, fun b h => ?_⟩
            cases hf : finish var d1 with
            | mk r d2 =>
              rw [hf] at h
              simp only at h
              subst h
              exact (finish_inv hf).2.2.1
          | false =>
            simp only
            have hlist : ∀ l : List String, (∀ k ∈ l, k ∈ needs var) → ∀ d, OnlyAvailable loaded (fun k => fs (pre ++ "." ++ k)) d →
                Keeps d (checkDeps N fs pre l d).2 ∧
                OnlyAvailable loaded (fun k => fs (pre ++ "." ++ k)) (checkDeps N fs pre l d).2 ∧
                ∀ b, (checkDeps N fs pre l d).1 = .ok b → ∀ k ∈ l, k ∈ (checkDeps N fs pre l d).2.keys := by
              intro l
              induction l with
              | nil =>
                intro _ d hd
                rw [checkDeps]
                exact ⟨fun _ _ h => h, hd, fun _ _ k hk => by cases hk⟩
              | cons a t iht =>
                intro hl d hd
                have hne : needs var ≠ [] := List.ne_nil_of_mem (hl a (by simp))
                have hdeps : dependencyVars.get? var = some (needs var) := by rw [needs_deps, if_neg hne]
                have hlow := rank_lt var _ hdeps
                obtain ⟨a1, a2, a3⟩ := ih a (by have := hlow a (hl a (by simp)); omega) d hd
                rw [checkDeps]
                cases hc : checkData N fs pre a d with
                | mk r d1 =>
                  rw [hc] at a1 a2 a3
                  cases r with
                  | error e => exact ⟨a1, a2, fun b h => by cases h⟩
                  | ok b =>
                    simp only
                    obtain ⟨t1, t2, t3⟩ := iht (fun k hk => hl k (by simp [hk])) d1 a2
                    cases ht : checkDeps N fs pre t d1 with
                    | mk r d2 =>
                      rw [ht] at t1 t2 t3
                      cases r with
                      | error e => exact ⟨keeps_trans a1 t1, t2, fun b h => by cases h⟩
                      | ok b' =>
                        refine ⟨keeps_trans a1 t1, t2, fun _ _ k hk => ?_⟩
                        rcases List.mem_cons.1 hk with rfl | hk
                        · obtain ⟨v, hv⟩ := Dict.mem_keys_iff.1 (a3 b rfl)
                          exact Dict.mem_keys_iff.2 ⟨v, t1 _ _ hv⟩
                        · exact t3 b' rfl k hk
            split
            · exact ⟨hread.1, hread.2, fun b h => by cases h⟩
            · rename_i ds hds
              have hneeds : ds = needs var ∧ needs var ≠ [] := by
                rw [needs_deps] at hds
                split at hds
                · cases hds
                · rename_i h
                  cases hds
                  exact ⟨rfl, h⟩
              obtain ⟨rfl, hne⟩ := hneeds
              obtain ⟨t1, t2, t3⟩ := hlist (needs var) (fun _ h => h) d1 hread.2
              cases ht : checkDeps N fs pre (needs var) d1 with
              | mk r d2 =>
                rw [ht] at t1 t2 t3
                have hk2 := keeps_trans hread.1 t1
                cases r with
                | error e => exact ⟨hk2, t2, fun b h => by cases h⟩
                | ok b =>
                  cases b with
                  | false => exact ⟨hk2, t2, fun b h => by cases h⟩
                  | true =>
                    simp only
                    cases hcv : computeVarname N var d2 with
                    | error e => exact ⟨hk2, t2, fun b h => by cases h⟩
                    | ok d3 =>
                      simp only
                      obtain ⟨v, rfl⟩ := compute_set hcv
                      rw [finish_state]
                      refine ⟨fun k w hk => ?_, only_set v t2 fun _ => ?_, fun _ _ => ?_⟩
                      · have : k ≠ var := fun e => hin (Dict.mem_keys_iff.2 ⟨w, e ▸ hk⟩)
                        rw [Dict.get?_set_ne _ _ this]
                        exact hk2 k w hk
                      · refine .computed var hne fun k hk => ?_
                        refine t2 k (t3 true rfl k hk) ?_
                        intro e
                        subst e
                        exact needs_time var hk
                      · exact Dict.mem_keys_iff.2 ⟨v, Dict.get?_set_self _ _ _⟩

/-- **C48, whatever the files** (of any contents and shapes) and the outcome: nothing loaded before changes, what is added is
available (or the time), and a success puts the variable in the dictionary: a variable that is not available is refused. -/
theorem C48_always (N : PhyNum F) (fs : String → Option (Raw F)) (pre var : String) (d : Data F) :
    Keeps d (checkData N fs pre var d).2 ∧
    (∀ k ∈ (checkData N fs pre var d).2.keys, k = "time" ∨ Available d (fun k => fs (pre ++ "." ++ k)) k) ∧
    (∀ b, (checkData N fs pre var d).1 = .ok b → var ∈ (checkData N fs pre var d).2.keys) ∧
    (var ≠ "time" → ¬ Available d (fun k => fs (pre ++ "." ++ k)) var → ∃ e, (checkData N fs pre var d).1 = .error e) := by
  obtain ⟨h1, h2, h3⟩ := check_any (N := N) (loaded := d) (fs := fs) (pre := pre) (rank var + 1) var (by omega) d (by
    intro k hk _
    obtain ⟨v, hv⟩ := Dict.mem_keys_iff.1 hk
    exact .loaded k v hv)
  refine ⟨h1, fun k hk => ?_, h3, fun ht ha => ?_⟩
  · by_cases e : k = "time"
    · exact .inl e
    · exact .inr (h2 k hk e)
  · cases hc : (checkData N fs pre var d).1 with
    | error e => exact ⟨e, rfl⟩
    | ok b => exact absurd (h2 var (h3 b hc) ht) ha

/-- The time comes with the first variable that is read: the second column of its file. -/
theorem C48_time (N : PhyNum F) (fs : String → Option (Raw F)) (pre var : String) (d : Data F) (rows : List (List F))
    (t : List F) (hf : fs (pre ++ "." ++ var) = some (.arr (.mat rows))) (hc : ¬ isCoordinate var) (hv : var ≠ "time")
    (hn : var ∉ d.keys) (ht : rows.map (fun r => r[1]?) = t.map some) :
    ∃ d', loadData N fs pre var d = (.ok true, d') ∧
      d'.get? "time" = some ((d.get? "time").getD (.vec t)) := by
  have hcoord : var ∉ ["X", "Y", "Z"] := by simpa [isCoordinate] using hc
  unfold loadData
  rw [if_neg hn, readData, hf]
  simp only [hcoord, decide_false, Bool.false_eq_true, if_false]
  have hkeys : "time" ∈ (d.set var (.mat (rows.map (·.drop 3)))).keys ↔ "time" ∈ d.keys := by
    rw [Dict.mem_keys_iff, Dict.mem_keys_iff, Dict.get?_set_ne _ _ (Ne.symm hv)]
  by_cases hk : "time" ∈ d.keys
  · rw [if_pos (hkeys.2 hk)]
    obtain ⟨w, hw⟩ := Dict.mem_keys_iff.1 hk
    refine ⟨_, rfl, ?_⟩
    rw [Dict.get?_set_ne _ _ (Ne.symm hv), hw]; rfl
  · rw [if_neg fun h => hk (hkeys.1 h)]
    have hm : rows.mapM (fun r => npGet r (1 : Int)) = .ok t := by
      rw [mapM_ok_iff]
      have : List.Forall₂ (fun r x => r[1]? = some x) rows t := by
        rw [← List.forall₂_eq_eq_eq, List.forall₂_map_left_iff, List.forall₂_map_right_iff] at ht
        exact ht
      refine this.imp ?_
      intro r x h
      rw [show (1 : Int) = ((1 : Nat) : Int) from rfl, npGet_nat, h]
    rw [hm]
    refine ⟨_, rfl, ?_⟩
    rw [Dict.get?_set_self, Dict.get?_eq_none_iff.2 hk]; rfl

/-! ## An example -/

/-- Integers instead of floating point numbers: no root, no logarithm. -/
def intPhy : PhyNum Int where
  add := (· + ·)
  sub := (· - ·)
  mul := (· * ·)
  div := (· / ·)
  pow a _ := a * a
  sqrt a := a
  log a := a
  lit s := if s = "5" then 5 else if s = "1.4" then 14 else 1
  steady _ := true

/-- Pressure and density in files with two lines of two points, one velocity component; a coordinate. -/
def someFiles : String → Option (Raw Int) := fun n =>
  if n = "probe.P" then some (.arr (.mat [[0, 7, 2, 10, 20], [1, 8, 2, 30, 40]]))
  else if n = "probe.RHO" then some (.arr (.mat [[0, 7, 2, 2, 2], [1, 8, 2, 5, 5]]))
  else if n = "probe.U-X" then some (.arr (.mat [[0, 7, 2, 1, 2], [1, 8, 2, 3, 4]]))
  else if n = "probe.X" then some (.arr (.mat [[0, 7, 2, 100, 101], [1, 8, 2, 100, 101]]))
  else none

theorem someFiles_consistent : Consistent intPhy [] (fun k => someFiles ("probe" ++ "." ++ k)) (.mat 2 2) where
  nonempty := ⟨by decide, by decide⟩
  loaded := by intro k v h; cases h
  files := by
    intro k r h
    have hk : ∀ s, "probe" ++ "." ++ k = "probe" ++ "." ++ s → k = s := by
      intro s e
      have := congrArg String.toList e
      simp only [String.toList_append, List.append_cancel_left_eq] at this
      exact String.toList_inj.1 this
    simp only [someFiles] at h
    split at h
    · rename_i e; have := hk "P" e; subst this; obtain rfl := Option.some.inj h
      refine ⟨_, rfl, by decide +kernel, fun _ => ?_⟩; constructor <;> decide
    · split at h
      · rename_i e; have := hk "RHO" e; subst this; obtain rfl := Option.some.inj h
        refine ⟨_, rfl, by decide +kernel, fun _ => ?_⟩; constructor <;> decide
      · split at h
        · rename_i e; have := hk "U-X" e; subst this; obtain rfl := Option.some.inj h
          refine ⟨_, rfl, by decide +kernel, fun _ => ?_⟩; constructor <;> decide
        · split at h
          · rename_i e; have := hk "X" e; subst this; obtain rfl := Option.some.inj h
            exact ⟨_, rfl, by decide +kernel, fun h => absurd (.inl rfl) h⟩
          · cases h
  steady := by intros; rfl

/-- `INVX+` is computed from the files: two levels. -/
theorem someFiles_available : Available [] (fun k => someFiles ("probe" ++ "." ++ k)) "INVX+" := by
  refine .computed _ (by decide +kernel) ?_
  intro d hd
  rw [show needs "INVX+" = ["U-X", "Asound"] from by decide +kernel] at hd
  simp only [List.mem_cons, List.not_mem_nil, or_false] at hd
  rcases hd with rfl | rfl
  · exact .file _ (.arr (.mat [[0, 7, 2, 1, 2], [1, 8, 2, 3, 4]])) (by decide +kernel)
  · refine .computed _ (by decide +kernel) ?_
    intro d hd
    rw [show needs "Asound" = ["P", "RHO"] from by decide +kernel] at hd
    simp only [List.mem_cons, List.not_mem_nil, or_false] at hd
    rcases hd with rfl | rfl
    · exact .file _ (.arr (.mat [[0, 7, 2, 10, 20], [1, 8, 2, 30, 40]])) (by decide +kernel)
    · exact .file _ (.arr (.mat [[0, 7, 2, 2, 2], [1, 8, 2, 5, 5]])) (by decide +kernel)

/-- `Mach` is not available: two components of the velocity are missing. -/
theorem someFiles_missing : ¬ Available [] (fun k => someFiles ("probe" ++ "." ++ k)) "Mach" := by
  intro h
  cases h with
  | loaded _ v h => cases h
  | file _ r h => exact absurd h (by rw [show someFiles ("probe" ++ "." ++ "Mach") = none from by decide +kernel]; simp)
  | computed _ _ h =>
    have hU := h "U" (by decide +kernel)
    cases hU with
    | loaded _ v h => cases h
    | file _ r h => exact absurd h (by rw [show someFiles ("probe" ++ "." ++ "U") = none from by decide +kernel]; simp)
    | computed _ _ h =>
      have hY := h "U-Y" (by decide +kernel)
      cases hY with
      | loaded _ v h => cases h
      | file _ r h => exact absurd h (by rw [show someFiles ("probe" ++ "." ++ "U-Y") = none from by decide +kernel]; simp)
      | computed _ hn _ => exact hn (by decide +kernel)

/-- What `INVX+` looks like: `5 * Asound + U-X` with `Asound = 14 * P / RHO`. -/
example : computeVarname intPhy "INVX+" [("U-X", .mat [[1, 2], [3, 4]]), ("Asound", .mat [[70, 140], [84, 112]])] =
    .ok [("U-X", .mat [[1, 2], [3, 4]]), ("Asound", .mat [[70, 140], [84, 112]]), ("INVX+", .mat [[351, 702], [423, 564]])] := by
  decide +kernel

/-- C48 applied to these files. -/
example : ∃ r : String → Nat, r "U-X" < r "INVX+" ∧ r "P" < r "Asound" ∧ r "Asound" < r "INVX+" := by
  obtain ⟨-, r, h⟩ := C48_acyclic
  exact ⟨r, h _ _ (by decide), h _ _ (by decide), h _ _ (by decide)⟩
example := C48_success intPhy someFiles "probe" "INVX+" [] _ someFiles_consistent someFiles_available
-- also for files that do not fit together
example : ∃ e, (checkData intPhy (fun n => if n = "probe.RHO" then some (.arr (.vec [0, 1, 2, 3])) else none) "probe" "Asound"
    [("time", .vec [4])]).1 = .error e := by
  refine (C48_always intPhy _ "probe" "Asound" _).2.2.2 (by decide) ?_
  intro h
  cases h with
  | loaded _ v h => cases h
  | file _ r h => exact absurd h (by rw [if_neg (by decide +kernel)]; simp)
  | computed _ _ h =>
    cases h "P" (by decide +kernel) with
    | loaded _ v h => cases h
    | file _ r h => exact absurd h (by rw [if_neg (by decide +kernel)]; simp)
    | computed _ h _ => exact h (by decide +kernel)
example := C48_failure intPhy someFiles "probe" "Mach" [] _ someFiles_consistent someFiles_missing
example (k : String) (hk : k ≠ "time") (v w : Val Int) (h : (checkData intPhy someFiles "probe" "Mach" []).2.get? k = some v)
    (hw : HasValue intPhy [] (fun k => someFiles ("probe" ++ "." ++ k)) k w) : v = w :=
  C48_value_unique _ _ _ _ someFiles_consistent k v w
    (C48_values intPhy someFiles "probe" "Mach" [] _ someFiles_consistent k v hk h) hw
example (fs' : String → Option (Raw Int)) : ∃ d', checkData intPhy someFiles "probe" "INVX+" [] = (.ok true, d') ∧
    checkData intPhy fs' "other" "INVX+" d' = (.ok true, d') := by
  obtain ⟨d', v, h, -⟩ := C48_success intPhy someFiles "probe" "INVX+" [] _ someFiles_consistent someFiles_available
  exact ⟨d', h, (C48_again intPhy someFiles fs' "probe" "other" "INVX+" [] d' true h).2⟩
example := C48_time intPhy someFiles "probe" "P" [] [[0, 7, 2, 10, 20], [1, 8, 2, 30, 40]] [7, 8] (by decide +kernel)
  (by decide +kernel) (by decide) (by decide) (by decide)

end Cfd.Probes
