import Verif.Spec.Gmsh
import Verif.Lemmas.Mesh
import Mathlib.Data.List.Induction
import Std.Data.String.ToInt

/-! Lemmas on the Gmsh reader: sections and lines. -/

namespace Cfd.Gmsh
open Cfd.Spec Cfd.Spec.Gmsh

/-! ### Loops over ranges -/

theorem mapM_pyRange {β : Type} (f : Int → Py β) (r : List β) (a : Int)
    (h : ∀ (k : Nat) (x : β), r[k]? = some x → f (a + (k : Int)) = .ok x) :
    (pyRange a (a + (r.length : Int))).mapM f = .ok r := by
  induction r generalizing a with
  | nil => rw [pyRange_eq_nil (by simp)]; rfl
  | cons x t ih =>
    rw [pyRange_cons (by simp only [List.length_cons]; omega), List.mapM_cons]
    have h0 := h 0 x rfl
    rw [show a + ((0 : Nat) : Int) = a by omega] at h0
    have := ih (a + 1) (by
      intro k y hk
      have := h (k + 1) y (by simpa using hk)
      rwa [show a + 1 + (k : Int) = a + ((k + 1 : Nat) : Int) by omega])
    rw [show a + ((x :: t).length : Int) = a + 1 + (t.length : Int) by simp; omega, h0, this]
    rfl

theorem foldlM_pyRange {σ β : Type} (f : σ → Int → Py σ) (g : σ → β → σ) (r : List β) (a : Int) (s : σ)
    (h : ∀ (k : Nat) (x : β) (s : σ), r[k]? = some x → f s (a + (k : Int)) = .ok (g s x)) :
    (pyRange a (a + (r.length : Int))).foldlM f s = .ok (r.foldl g s) := by
  induction r generalizing a s with
  | nil => rw [pyRange_eq_nil (by simp)]; rfl
  | cons x t ih =>
    rw [pyRange_cons (by simp only [List.length_cons]; omega), List.foldlM_cons]
    have h0 := h 0 x s rfl
    rw [show a + ((0 : Nat) : Int) = a by omega] at h0
    rw [h0, show a + ((x :: t).length : Int) = a + 1 + (t.length : Int) by simp; omega]
    exact ih (a + 1) (g s x) (by
      intro k y s hk
      have := h (k + 1) y s (by simpa using hk)
      rwa [show a + 1 + (k : Int) = a + ((k + 1 : Nat) : Int) by omega])

theorem forall₂_get {α β : Type} {P : α → β → Prop} {l : List α} {r : List β} (h : List.Forall₂ P l r) {k : Nat} {y : β}
    (hk : r[k]? = some y) : ∃ x, l[k]? = some x ∧ P x y := by
  induction h generalizing k with
  | nil => simp at hk
  | cons h1 h2 ih =>
    cases k with
    | zero => simp only [List.getElem?_cons_zero, Option.some.injEq] at hk ⊢; subst hk; exact ⟨_, rfl, h1⟩
    | succ k => simp only [List.getElem?_cons_succ] at hk ⊢; exact ih hk

theorem forall₂_get' {α β : Type} {P : α → β → Prop} {l : List α} {r : List β} (h : List.Forall₂ P l r) {k : Nat} {x : α}
    (hk : l[k]? = some x) : ∃ y, r[k]? = some y ∧ P x y := by
  obtain ⟨y, h1, h2⟩ := forall₂_get h.flip hk
  exact ⟨y, h1, h2⟩

theorem npGet_at {α : Type} {l : List α} {i : Int} {k : Nat} {x : α} (hi : i = (k : Int)) (h : l[k]? = some x) :
    npGet l i = .ok x := by subst hi; exact npGet_nat.2 h

/-! ### Sections -/

theorem dollar_ne (name : String) : ("$" ++ name) ≠ ("$End" ++ name) := by
  intro h
  have := congrArg String.length h
  simp only [String.length_append] at this
  have e1 : "$".length = 1 := by decide
  have e2 : "$End".length = 4 := by decide
  omega

theorem getSection_ok {msh : Lines} {name : String} {body : Lines} (h : HasSection msh name body) :
    getSection msh name = .ok body := by
  obtain ⟨pre, post, rfl, h1, h2, h3⟩ := h
  have i1 : lineIndex (pre ++ [["$" ++ name]] ++ body ++ [["$End" ++ name]] ++ post) ["$" ++ name] = .ok pre.length := by
    unfold lineIndex
    rw [if_pos (by simp)]
    congr 1
    simp only [List.append_assoc, List.cons_append, List.nil_append]
    rw [List.idxOf_append_of_notMem h1, List.idxOf_cons_self, Nat.add_zero]
  have i2 : lineIndex (pre ++ [["$" ++ name]] ++ body ++ [["$End" ++ name]] ++ post) ["$End" ++ name] =
      .ok (pre.length + 1 + body.length) := by
    unfold lineIndex
    rw [if_pos (by simp)]
    congr 1
    simp only [List.append_assoc, List.cons_append, List.nil_append]
    rw [List.idxOf_append_of_notMem h2, List.idxOf_cons_ne _ (fun h => dollar_ne name (List.singleton_inj.1 h)),
      List.idxOf_append_of_notMem h3, List.idxOf_cons_self]
    omega
  unfold getSection
  rw [i1, i2]
  simp only [Except_bind_ok, Except_pure]
  congr 1
  have : pre ++ [["$" ++ name]] ++ body ++ [["$End" ++ name]] ++ post =
      (pre ++ [["$" ++ name]] ++ body) ++ ([["$End" ++ name]] ++ post) := by simp
  rw [this, List.take_left' (by simp; omega), List.drop_left' (by simp)]

/-! ### Words -/

variable {R : Type} {num : PyNum R}

theorem IntLine.get {l : List String} {ns : List Int} (h : IntLine num l ns) {k : Nat} {n : Int}
    (hk : ns[k]? = some n) : ∃ w, l[k]? = some w ∧ num.int w = .ok n := forall₂_get h hk

theorem FloatLine.get {l : List String} {ns : List R} (h : FloatLine num l ns) {k : Nat} {n : R}
    (hk : ns[k]? = some n) : ∃ w, l[k]? = some w ∧ num.float w = .ok n := forall₂_get h hk

theorem word_ok {lines : Lines} {i j : Int} {a b : Nat} {l : List String} {w : String} (hi : i = (a : Int)) (hj : j = (b : Int))
    (hl : lines[a]? = some l) (hw : l[b]? = some w) : word lines i j = .ok w := by
  unfold word
  rw [npGet_at hi hl, Except_bind_ok]
  exact npGet_at hj hw

theorem intAt_ok {lines : Lines} {i j : Int} {a b : Nat} {l : List String} {ns : List Int} {n : Int} (hi : i = (a : Int))
    (hj : j = (b : Int)) (hl : lines[a]? = some l) (h : IntLine num l ns) (hn : ns[b]? = some n) :
    intAt num lines i j = .ok n := by
  obtain ⟨w, hw, hv⟩ := IntLine.get h hn
  unfold intAt
  rw [word_ok hi hj hl hw, Except_bind_ok, hv]

theorem floatAt_ok {lines : Lines} {i j : Int} {a b : Nat} {l : List String} {w : String} {n : R} (hi : i = (a : Int))
    (hj : j = (b : Int)) (hl : lines[a]? = some l) (hw : l[b]? = some w) (hn : num.float w = .ok n) :
    floatAt num lines i j = .ok n := by
  unfold floatAt
  rw [word_ok hi hj hl hw, Except_bind_ok, hn]

theorem intLine_ok {lines : Lines} {i : Int} {a : Nat} {l : List String} {ns : List Int} (hi : i = (a : Int))
    (hl : lines[a]? = some l) (h : IntLine num l ns) : intLine num lines i = .ok ns := by
  unfold intLine
  rw [npGet_at hi hl, Except_bind_ok, mapM_ok_iff]
  exact h

/-! ### Physical names -/

theorem unquote_quoted (s : String) : unquote ("\"" ++ s ++ "\"") = s := by
  unfold unquote
  have : ("\"" ++ s ++ "\"").toList = '"' :: (s.toList ++ ['"']) := by
    simp only [String.toList_append]; rfl
  rw [this, List.tail_cons, List.dropLast_concat, String.ofList_toList]

/-- Both dictionaries of the physical names. -/
def nameDicts (names : List PhysName) (dims : List String) : Dict String String × Dict String String :=
  (names.zip dims).foldl (fun d p => (d.1.set (toString p.1.tag) p.1.name, d.2.set p.1.name p.2)) ([], [])

theorem readNames_ok {msh : Lines} {names : Option (List PhysName)} (h : HasNames num msh names) :
    ∃ dims : List String, readNames num msh = .ok (names.map fun l => nameDicts l dims) ∧
      ∀ l, names = some l → dims.length = l.length := by
  cases names with
  | none => exact ⟨[], by unfold readNames; rw [if_neg h]; rfl, by simp⟩
  | some l =>
    obtain ⟨head, lines, hs, hh, hl⟩ := h
    have hm : ["$PhysicalNames"] ∈ msh := by
      obtain ⟨pre, post, rfl, -⟩ := hs
      have : "$" ++ "PhysicalNames" = "$PhysicalNames" := by decide
      rw [this]; simp
    -- the words of dimension
    have hd : ∃ dims : List String, dims.length = l.length ∧ ∀ (k : Nat) (q : PhysName × String), (l.zip dims)[k]? = some q →
        lines[k]? = some [q.2, toString q.1.tag, "\"" ++ q.1.name ++ "\""] := by
      clear hs hh hm
      induction hl with
      | nil => exact ⟨[], rfl, by simp⟩
      | @cons a b l r hab hlr ih =>
        obtain ⟨dims, i1, i2⟩ := ih
        obtain ⟨w, -, hw⟩ := hab
        refine ⟨w :: dims, by simp [i1], ?_⟩
        intro k q hq
        cases k with
        | zero => simp only [List.zip_cons_cons, List.getElem?_cons_zero, Option.some.injEq] at hq; subst hq; simp [hw]
        | succ k => simp only [List.zip_cons_cons, List.getElem?_cons_succ] at hq ⊢; exact i2 k q hq
    obtain ⟨dims, d1, d2⟩ := hd
    refine ⟨dims, ?_, by intro l' e; cases e; exact d1⟩
    unfold readNames
    rw [if_pos hm, getSection_ok hs, Except_bind_ok,
      intAt_ok (i := 0) (j := 0) (a := 0) (b := 0) rfl rfl rfl hh rfl, Except_bind_ok]
    have hz : (l.length : Int) + 1 = 1 + ((l.zip dims).length : Int) := by simp [d1]; omega
    rw [hz, foldlM_pyRange _ (fun (d : Dict String String × Dict String String) (p : PhysName × String) =>
      (d.1.set (toString p.1.tag) p.1.name, d.2.set p.1.name p.2)) (l.zip dims) 1 ([], [])]
    · rfl
    · intro k q s hq
      have hk : (head :: lines)[k + 1]? = some [q.2, toString q.1.tag, "\"" ++ q.1.name ++ "\""] := by
        rw [List.getElem?_cons_succ]; exact d2 k q hq
      unfold readName
      rw [word_ok (i := 1 + (k : Int)) (j := 1) (a := k + 1) (b := 1) (by omega) rfl hk rfl, word_ok (i := 1 + (k : Int)) (j := 2) (a := k + 1) (b := 2) (by omega) rfl hk rfl,
        word_ok (i := 1 + (k : Int)) (j := 0) (a := k + 1) (b := 0) (by omega) rfl hk rfl]
      simp only [Except_bind_ok, Except_pure, unquote_quoted]

/-- The dictionary of families, when no number is used twice. -/
theorem nameDicts_get {names : List PhysName} {dims : List String} (hd : dims.length = names.length)
    (hn : (names.map (·.tag)).Nodup) {p : PhysName} (hp : p ∈ names) :
    (nameDicts names dims).1.get? (toString p.tag) = some p.name := by
  have key : ∀ (l : List (PhysName × String)) (d : Dict String String × Dict String String),
      (l.foldl (fun d p => (d.1.set (toString p.1.tag) p.1.name, d.2.set p.1.name p.2)) d).1 =
        l.foldl (fun (d : Dict String String) p => d.set (toString p.1.tag) p.1.name) d.1 := by
    intro l
    induction l with
    | nil => intro d; rfl
    | cons a t ih => intro d; rw [List.foldl_cons, ih, List.foldl_cons]
  unfold nameDicts
  rw [key]
  have gen : ∀ (l : List (PhysName × String)) (d : Dict String String), (l.map (·.1.tag)).Nodup → ∀ q ∈ l,
      (l.foldl (fun (d : Dict String String) p => d.set (toString p.1.tag) p.1.name) d).get? (toString q.1.tag) =
        some q.1.name := by
    intro l
    induction l using List.reverseRecOn with
    | nil => simp
    | append_singleton t a ih =>
      intro d hnd q hq
      rw [List.foldl_append, List.foldl_cons, List.foldl_nil]
      rcases List.mem_append.1 hq with hq | hq
      · rw [List.map_append, List.nodup_append] at hnd
        have hne : toString a.1.tag ≠ toString q.1.tag := by
          intro e
          have e' : a.1.tag = q.1.tag := Int.repr_inj.1 e
          exact hnd.2.2 _ (List.mem_map_of_mem hq) a.1.tag (by simp) e'.symm
        rw [Dict.get?_set_ne _ _ hne.symm]
        exact ih d hnd.1 q hq
      · rw [List.mem_singleton] at hq; subst hq
        rw [Dict.get?_set_self]
  obtain ⟨k, hk, rfl⟩ := List.getElem_of_mem hp
  have hz : (names.zip dims)[k]'(by simp [hd]; exact hk) = (names[k], dims[k]'(by omega)) := by simp
  have := gen (names.zip dims) [] (by
    have : (names.zip dims).map (·.1.tag) = ((names.zip dims).map (·.1)).map (·.tag) := by rw [List.map_map]; rfl
    rw [this, List.map_fst_zip (by omega)]; exact hn) _ (List.getElem_mem (by simp [hd]; exact hk))
  rw [hz] at this
  exact this

end Cfd.Gmsh
