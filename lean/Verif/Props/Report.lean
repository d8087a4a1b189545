import Verif.Spec.Report
import Verif.Props.Commands
import Verif.Props.Cube
import Mathlib.Algebra.BigOperators.Group.List.Basic
import Mathlib.Algebra.Order.Field.Rat
import Mathlib.Tactic.Ring
import Mathlib.Tactic.FieldSimp

/-! # C89: the information printed on a mesh and on variables -/

namespace Cfd.Report
open Cfd.Spec Cfd.Spec.Report Cfd.Commands

/-! ## Extrema -/

theorem min?_some {R : Type} [LinearOrder R] {l : List R} (h : l ≠ []) : ∃ a, l.min? = some a ∧ a ∈ l ∧ ∀ x ∈ l, a ≤ x := by
  cases hm : l.min? with
  | none => exact absurd (List.min?_eq_none_iff.1 hm) h
  | some a =>
    obtain ⟨h1, h2⟩ := List.min?_eq_some_iff.1 hm
    exact ⟨a, rfl, h1, h2⟩

theorem max?_some {R : Type} [LinearOrder R] {l : List R} (h : l ≠ []) : ∃ a, l.max? = some a ∧ a ∈ l ∧ ∀ x ∈ l, x ≤ a := by
  cases hm : l.max? with
  | none => exact absurd (List.max?_eq_none_iff.1 hm) h
  | some a =>
    obtain ⟨h1, h2⟩ := List.max?_eq_some_iff.1 hm
    exact ⟨a, rfl, h1, h2⟩

section
variable {R : Type} [Field R] [LinearOrder R]

theorem minavgmax_eq {l : List R} {a v b : R} : minavgmax l = .ok (a, v, b) ↔ Summary l a v b := by
  unfold minavgmax
  by_cases h : l = []
  · subst h
    constructor
    · intro h; cases h
    · intro h; cases h.least.1
  obtain ⟨a', h1, h2, h3⟩ := min?_some h
  obtain ⟨b', h4, h5, h6⟩ := max?_some h
  rw [h1, h4]
  simp only [Except.ok.injEq, Prod.mk.injEq]
  constructor
  · rintro ⟨rfl, rfl, rfl⟩
    exact ⟨⟨h2, h3⟩, rfl, h5, h6⟩
  · intro h
    exact ⟨le_antisymm (h3 a h.least.1) (h.least.2 a' h2), h.mean.symm, le_antisymm (h.greatest.2 b' h5) (h6 b h.greatest.1)⟩

theorem minavgmax_ok {l : List R} : (∃ s, minavgmax l = .ok s) ↔ l ≠ [] := by
  constructor
  · rintro ⟨⟨a, v, b⟩, h⟩ rfl
    cases h
  · intro h
    obtain ⟨a', h1, -, -⟩ := min?_some h
    obtain ⟨b', h4, -, -⟩ := max?_some h
    unfold minavgmax
    rw [h1, h4]
    exact ⟨_, rfl⟩

theorem coordLine_eq {c : Char} {l : List R} {x : Line R} :
    coordLine c l = .ok x ↔ ∃ a v b, x = .coord c a v b ∧ Summary l a v b := by
  unfold coordLine
  rw [bind_eq_ok]
  constructor
  · rintro ⟨⟨a, v, b⟩, h, hx⟩
    cases hx
    exact ⟨a, v, b, rfl, minavgmax_eq.1 h⟩
  · rintro ⟨a, v, b, rfl, h⟩
    exact ⟨_, minavgmax_eq.2 h, rfl⟩

theorem indexText_eq {i : IndexList} {t : IndexText} : indexText i = .ok t ↔ TellsIndex i t := by
  cases i with
  | unset =>
    constructor
    · intro h; cases h
    · intro h; cases t <;> exact h.elim
  | range a b =>
    cases t with
    | range a' b' =>
      simp only [indexText, TellsIndex, Except.ok.injEq, IndexText.range.injEq]
      exact ⟨fun h => ⟨h.1.symm, h.2.symm⟩, fun h => ⟨h.1.symm, h.2.symm⟩⟩
    | list _ _ _ => exact ⟨fun h => (nomatch h), fun h => h.elim⟩
  | list l =>
    by_cases h : l = []
    · subst h
      constructor
      · intro h; cases h
      · intro h
        cases t with
        | range _ _ => exact h.elim
        | list _ _ _ => cases h.2.1.1
    obtain ⟨a', h1, h2, h3⟩ := min?_some h
    obtain ⟨b', h4, h5, h6⟩ := max?_some h
    unfold indexText
    simp only [h1, h4, Except.ok.injEq]
    constructor
    · rintro rfl
      exact ⟨rfl, ⟨h2, h3⟩, h5, h6⟩
    · intro h
      cases t with
      | range _ _ => exact h.elim
      | list a b n =>
        obtain ⟨rfl, ⟨q1, q2⟩, q3, q4⟩ := h
        rw [Int.le_antisymm (h3 a q1) (q2 a' h2), Int.le_antisymm (q4 b' h5) (h6 b q3)]

theorem indexText_ok {i : IndexList} : (∃ t, indexText i = .ok t) ↔ showIndex i = .ok () := by
  cases i with
  | unset => exact ⟨fun ⟨_, h⟩ => (nomatch h), fun h => nomatch h⟩
  | range a b => exact ⟨fun _ => rfl, fun _ => ⟨_, rfl⟩⟩
  | list l =>
    cases l with
    | nil => exact ⟨fun ⟨_, h⟩ => (nomatch h), fun h => nomatch h⟩
    | cons x l => exact ⟨fun _ => rfl, fun _ => ⟨_, rfl⟩⟩

theorem shape_eq (a : Arr2) : shape a = a.rows.length :: a.ncol.toList := by
  unfold shape
  cases a.ncol <;> rfl

theorem connLines_tells {c : ElemConn} {L : List (Line R)} (h : connLines c = .ok L) : List.Forall₂ TellsElems c.tbl L := by
  refine (mapM_ok_iff.1 h).imp fun p l h => ?_
  obtain ⟨t, ht, h⟩ := bind_eq_ok.1 h
  cases h
  exact ⟨t, by rw [shape_eq], indexText_eq.1 ht⟩

theorem cellLines_tells {c : Option ElemConn} {L : List (Line R)} (h : cellLines c = .ok L) : TellsCells c L := by
  cases c with
  | none => cases h; rfl
  | some c => exact connLines_tells h

theorem facesLines_tells {d : Dict String FaceSet} {L : List (Line R)} (h : facesLines d = .ok L) : TellsFaces d L := by
  unfold facesLines at h
  by_cases hd : d.isEmpty
  · rw [if_pos hd] at h
    cases h
    exact .inl ⟨List.isEmpty_iff.1 hd, rfl⟩
  · rw [if_neg hd] at h
    obtain ⟨blocks, hb, h⟩ := bind_eq_ok.1 h
    cases h
    refine .inr ⟨fun h => hd (List.isEmpty_iff.2 h), blocks, rfl, (mapM_ok_iff.1 hb).imp fun p b h => ?_⟩
    obtain ⟨t, ht, h⟩ := bind_eq_ok.1 h
    cases h
    exact ⟨t, rfl, connLines_tells ht⟩

theorem markLine_tells {p : String × Mark} {l : Line R} (h : markLine p = .ok l) : TellsMark p l := by
  obtain ⟨t, ht, h⟩ := bind_eq_ok.1 h
  cases h
  exact ⟨t, rfl, indexText_eq.1 ht⟩

/-! ## When there is something to print -/

theorem connLines_ok {c : ElemConn} : (∃ L : List (Line R), connLines c = .ok L) ↔ ∀ p ∈ c.tbl, showIndex p.2.index = .ok () := by
  unfold connLines
  rw [Cgns.mapM_isOk_iff]
  refine forall₂_congr fun p _ => ?_
  rw [← indexText_ok]
  constructor
  · rintro ⟨l, h⟩
    obtain ⟨t, ht, -⟩ := bind_eq_ok.1 h
    exact ⟨t, ht⟩
  · rintro ⟨t, ht⟩
    exact ⟨_, bind_eq_ok.2 ⟨t, ht, rfl⟩⟩

theorem cellLines_ok {c : Option ElemConn} : (∃ L : List (Line R), cellLines c = .ok L) ↔
    ∀ c', c = some c' → ∀ p ∈ c'.tbl, showIndex p.2.index = .ok () := by
  cases c with
  | none => exact ⟨fun _ _ h => (nomatch h), fun _ => ⟨_, rfl⟩⟩
  | some c =>
    refine (connLines_ok (R := R)).trans ⟨fun h c' hc => ?_, fun h => h c rfl⟩
    cases hc
    exact h

theorem facesLines_ok {d : Dict String FaceSet} : (∃ L : List (Line R), facesLines d = .ok L) ↔
    ∀ p ∈ d, ∀ q ∈ p.2.f2n.tbl, showIndex q.2.index = .ok () := by
  unfold facesLines
  by_cases hd : d.isEmpty
  · rw [if_pos hd]
    rw [List.isEmpty_iff.1 hd]
    exact ⟨fun _ p hp => (nomatch hp), fun _ => ⟨_, rfl⟩⟩
  · rw [if_neg hd]
    have h1 : (∃ L : List (Line R), (do let l ← d.mapM faceLines; return l.flatten) = Except.ok (ε := PyErr) L) ↔
        ∃ l : List (List (Line R)), d.mapM faceLines = .ok l := by
      constructor
      · rintro ⟨L, h⟩
        obtain ⟨l, hl, -⟩ := bind_eq_ok.1 h
        exact ⟨l, hl⟩
      · rintro ⟨l, hl⟩
        exact ⟨_, bind_eq_ok.2 ⟨l, hl, rfl⟩⟩
    rw [h1, Cgns.mapM_isOk_iff]
    refine forall₂_congr fun p _ => ?_
    rw [← connLines_ok (R := R)]
    constructor
    · rintro ⟨l, h⟩
      obtain ⟨t, ht, -⟩ := bind_eq_ok.1 h
      exact ⟨t, ht⟩
    · rintro ⟨t, ht⟩
      exact ⟨_, bind_eq_ok.2 ⟨t, ht, rfl⟩⟩

theorem marks_ok {d : Dict String Mark} : (∃ L : List (Line R), d.mapM markLine = .ok L) ↔
    ∀ p ∈ d, showIndex p.2.index = .ok () := by
  rw [Cgns.mapM_isOk_iff]
  refine forall₂_congr fun p _ => ?_
  rw [← indexText_ok]
  constructor
  · rintro ⟨l, h⟩
    obtain ⟨t, ht, -⟩ := bind_eq_ok.1 h
    exact ⟨t, ht⟩
  · rintro ⟨t, ht⟩
    exact ⟨_, bind_eq_ok.2 ⟨t, ht, rfl⟩⟩

theorem coordLine_ok {c : Char} {l : List R} : (∃ x, coordLine c l = .ok x) ↔ l ≠ [] := by
  rw [← minavgmax_ok]
  constructor
  · rintro ⟨x, h⟩
    obtain ⟨t, ht, -⟩ := bind_eq_ok.1 h
    exact ⟨t, ht⟩
  · rintro ⟨t, ht⟩
    exact ⟨_, bind_eq_ok.2 ⟨t, ht, rfl⟩⟩

/-- C89: there is something to print exactly when `printinfo` does not raise. -/
theorem C89_succeeds (m : Mesh R) : (∃ L, lines m = .ok L) ↔ printinfo (fun _ => true) m = .ok () := by
  unfold lines
  cases hc : m.coords with
  | none =>
    constructor
    · rintro ⟨L, h⟩; cases h
    · intro h
      unfold printinfo at h
      rw [hc] at h
      cases h
  | some xyz =>
    obtain ⟨x, y, z⟩ := xyz
    rw [printinfo_ok hc]
    simp only
    constructor
    · rintro ⟨L, h⟩
      obtain ⟨lx, h1, h⟩ := bind_eq_ok.1 h
      obtain ⟨ly, h2, h⟩ := bind_eq_ok.1 h
      obtain ⟨lz, h3, h⟩ := bind_eq_ok.1 h
      obtain ⟨lc, h4, h⟩ := bind_eq_ok.1 h
      obtain ⟨lf, h5, h⟩ := bind_eq_ok.1 h
      obtain ⟨lm, h6, h⟩ := bind_eq_ok.1 h
      exact ⟨⟨coordLine_ok.1 ⟨_, h1⟩, coordLine_ok.1 ⟨_, h2⟩, coordLine_ok.1 ⟨_, h3⟩⟩, fun _ _ => trivial, cellLines_ok.1 ⟨_, h4⟩,
        facesLines_ok.1 ⟨_, h5⟩, marks_ok.1 ⟨_, h6⟩⟩
    · rintro ⟨⟨h1, h2, h3⟩, -, h4, h5, h6⟩
      obtain ⟨lx, h1⟩ := coordLine_ok.2 h1
      obtain ⟨ly, h2⟩ := coordLine_ok.2 h2
      obtain ⟨lz, h3⟩ := coordLine_ok.2 h3
      obtain ⟨lc, h4⟩ := (cellLines_ok (R := R)).2 h4
      obtain ⟨lf, h5⟩ := (facesLines_ok (R := R)).2 h5
      obtain ⟨lm, h6⟩ := (marks_ok (R := R)).2 h6
      exact ⟨_, bind_eq_ok.2 ⟨lx, h1, bind_eq_ok.2 ⟨ly, h2, bind_eq_ok.2 ⟨lz, h3, bind_eq_ok.2 ⟨lc, h4,
        bind_eq_ok.2 ⟨lf, h5, bind_eq_ok.2 ⟨lm, h6, rfl⟩⟩⟩⟩⟩⟩⟩

/-- C89: the lines printed on a mesh say its numbers of nodes, cells and faces, the least, mean and greatest coordinates of its
nodes, the types of its cells and faces with the numbers they carry, and its marks. -/
theorem C89_mesh (m : Mesh R) {x y z : List R} (hc : m.coords = some (x, y, z)) {L : List (Line R)} (h : lines m = .ok L) :
    ∃ a v b a' v' b' a'' v'' b'' cells faces marks,
      L = [.nnode m.nnode, .coord 'x' a v b, .coord 'y' a' v' b', .coord 'z' a'' v'' b'', .ncell m.ncell] ++ cells ++
        [.nface m.nface] ++ faces ++ .bocos (m.bocos.map (·.1)) :: marks ∧
      Summary x a v b ∧ Summary y a' v' b' ∧ Summary z a'' v'' b'' ∧
      TellsCells m.cell2node cells ∧ TellsFaces m.faces faces ∧ List.Forall₂ TellsMark m.bocos marks := by
  unfold lines at h
  rw [hc] at h
  simp only at h
  obtain ⟨lx, h1, h⟩ := bind_eq_ok.1 h
  obtain ⟨ly, h2, h⟩ := bind_eq_ok.1 h
  obtain ⟨lz, h3, h⟩ := bind_eq_ok.1 h
  obtain ⟨lc, h4, h⟩ := bind_eq_ok.1 h
  obtain ⟨lf, h5, h⟩ := bind_eq_ok.1 h
  obtain ⟨lm, h6, h⟩ := bind_eq_ok.1 h
  cases h
  obtain ⟨a, v, b, rfl, q1⟩ := coordLine_eq.1 h1
  obtain ⟨a', v', b', rfl, q2⟩ := coordLine_eq.1 h2
  obtain ⟨a'', v'', b'', rfl, q3⟩ := coordLine_eq.1 h3
  exact ⟨a, v, b, a', v', b', a'', v'', b'', lc, lf, lm, rfl, q1, q2, q3, cellLines_tells h4, facesLines_tells h5,
    (mapM_ok_iff.1 h6).imp fun _ _ h => markLine_tells h⟩

/-! ## The numbers of elements add up -/

theorem elements_count {c : ElemConn} (h : ConnWF c) : (elements c).length = (c.tbl.map fun p => p.2.e2n.rows.length).sum := by
  unfold elements
  rw [List.length_flatMap]
  congr 1
  refine List.map_congr_left fun p hp => ?_
  obtain ⟨⟨l, hl, hn⟩, -⟩ := h.entries p hp
  simp [indicesOf, hl, hn]

theorem told_sum {l : List (String × Entry)} {L : List (Line R)} (h : List.Forall₂ TellsElems l L) :
    (L.map lineCount).sum = (l.map fun p => p.2.e2n.rows.length).sum := by
  induction h with
  | nil => rfl
  | cons h _ ih =>
    obtain ⟨t, rfl, -⟩ := h
    simp only [List.map_cons, List.sum_cons, ih, lineCount]

/-- C89: for well-formed cells the numbers of elements printed for each type add up to the number of elements of the
connectivity, which is the number of cells printed if it was set from these cells. -/
theorem C89_counts (c : ElemConn) (hc : ConnWF c) {cells : List (Line R)} (h : TellsCells (some c) cells) :
    (cells.map lineCount).sum = c.nelem ∧ ∀ m : Mesh R, (m.setCell2node c).ncell = (cells.map lineCount).sum := by
  have h1 : (cells.map lineCount).sum = c.nelem := by
    rw [told_sum (R := R) h, ← elements_count hc, hc.nelem]
  exact ⟨h1, fun m => by rw [h1]; rfl⟩

/-- C89: for well-formed sets of faces the numbers of faces printed for each set and type add up to the number of faces of the sets. -/
theorem C89_face_counts (d : Dict String FaceSet) (hd : ∀ p ∈ d, ConnWF p.2.f2n) {faces : List (Line R)} (h : TellsFaces d faces) :
    (faces.map lineCount).sum = (d.map fun p => p.2.f2n.nelem).sum := by
  rcases h with ⟨rfl, rfl⟩ | ⟨-, blocks, rfl, h⟩
  · rfl
  · induction h with
    | nil => rfl
    | cons h _ ih =>
      obtain ⟨t, rfl, ht⟩ := h
      rw [List.flatten_cons, List.map_append, List.sum_append, ih fun p hp => hd p (List.mem_cons_of_mem _ hp)]
      have hp := hd _ List.mem_cons_self
      simp only [List.map_cons, List.sum_cons, lineCount, told_sum (R := R) ht, hp.nelem, elements_count hp, Nat.zero_add]

/-! ## Statistics of the variables -/

/-- C89: a scalar variable has one line, with its least value, mean and greatest value. -/
theorem C89_scalar (name : String) (i : Option Nat) (l : List R) (s : Stat R) :
    scalarStats name i l = .ok s ↔ TellsStat name i l s := by
  unfold scalarStats
  rw [bind_eq_ok]
  constructor
  · rintro ⟨⟨a, v, b⟩, h, hx⟩
    cases hx
    exact ⟨rfl, rfl, minavgmax_eq.1 h⟩
  · rintro ⟨h1, h2, h⟩
    refine ⟨(s.min, s.mean, s.max), minavgmax_eq.2 h, ?_⟩
    obtain ⟨n, c, a, v, b⟩ := s
    simp only at h1 h2
    subst h1 h2
    rfl

/-- C89: a vector variable of a V4 file has one line per component, with the least value, mean and greatest value of the component. -/
theorem C89_vector_v4 (name : String) (ncol : Nat) (rows : List (List R)) (L : List (Stat R)) :
    vectorStatsV4 name ncol rows = .ok L ↔
      List.Forall₂ (fun i s => TellsStat name (some i) (rows.map fun r => r.getD i 0) s) (List.range ncol) L := by
  unfold vectorStatsV4
  rw [mapM_ok_iff]
  constructor
  · exact fun h => h.imp fun i s h => (C89_scalar _ _ _ _).1 h
  · exact fun h => h.imp fun i s h => (C89_scalar _ _ _ _).2 h

/-- C89 (partial): a vector variable of a V2 or V3 file has one line per component, each with the least value, mean and greatest value of
all the components together. Missing: those of the component, see `C89_vector_refuted`. -/
theorem C89_vector_partial (name : String) (ncol : Nat) (rows : List (List R)) (L : List (Stat R)) :
    vectorStats name ncol rows = .ok L ↔
      List.Forall₂ (fun i s => TellsStat name (some i) rows.flatten s) (List.range ncol) L := by
  unfold vectorStats
  rw [mapM_ok_iff]
  constructor
  · exact fun h => h.imp fun i s h => (C89_scalar _ _ _ _).1 h
  · exact fun h => h.imp fun i s h => (C89_scalar _ _ _ _).2 h

end

/-- C89 (refuted): the line of a component does not always give the values of the component. -/
theorem C89_vector_refuted : ¬ ∀ (name : String) (rows : List (List Rat)) (L : List (Stat Rat)), vectorStats name 2 rows = .ok L →
    List.Forall₂ (fun i s => TellsStat name (some i) (rows.map fun r => r.getD i 0) s) (List.range 2) L := by
  intro h
  have h1 := h "U" [[0, 1], [0, 1]] [⟨"U", some 0, 0, 1 / 2, 1⟩, ⟨"U", some 1, 0, 1 / 2, 1⟩] (by decide +kernel)
  have h2 := (List.forall₂_cons.1 h1).1.2.2.greatest.1
  revert h2
  decide

/-! ## Cubes -/

section
variable {R : Type} [Field R] [LinearOrder R] [IsStrictOrderedRing R]

theorem sum_fst (f : Nat → R) (a b c : List Nat) :
    ((Cube.product a b c).map fun p => f p.1).sum = (b.length * c.length : Nat) * (a.map f).sum := by
  induction a with
  | nil => simp [Cube.product]
  | cons i a ih =>
    have h : Cube.product (i :: a) b c = Cube.product [i] b c ++ Cube.product a b c := by simp [Cube.product]
    have h1 : (Cube.product [i] b c).map (fun p => f p.1) = List.replicate (b.length * c.length) (f i) := by
      rw [List.eq_replicate_iff]
      refine ⟨by rw [List.length_map, length_product]; simp, ?_⟩
      intro x hx
      obtain ⟨p, hp, rfl⟩ := List.mem_map.1 hx
      rw [List.mem_singleton.1 (mem_product.1 hp).1]
    rw [h, List.map_append, List.sum_append, ih, h1, List.sum_replicate, List.map_cons, List.sum_cons, nsmul_eq_mul]
    ring

theorem sum_snd (f : Nat → R) (a b c : List Nat) :
    ((Cube.product a b c).map fun p => f p.2.1).sum = (a.length * c.length : Nat) * (b.map f).sum := by
  have hin : ∀ b : List Nat, ((b.flatMap fun j => c.map fun k => (j, k)).map fun q => f q.1).sum = c.length * (b.map f).sum := by
    intro b
    induction b with
    | nil => simp
    | cons j b ih =>
      rw [List.flatMap_cons, List.map_append, List.sum_append, ih, List.map_map, List.map_cons, List.sum_cons]
      have : c.map ((fun q : Nat × Nat => f q.1) ∘ fun k => (j, k)) = List.replicate c.length (f j) := by
        rw [List.eq_replicate_iff]
        refine ⟨by simp, ?_⟩
        intro x hx
        obtain ⟨k, -, rfl⟩ := List.mem_map.1 hx
        rfl
      rw [this, List.sum_replicate, nsmul_eq_mul]
      ring
  induction a with
  | nil => simp [Cube.product]
  | cons i a ih =>
    have h : Cube.product (i :: a) b c = Cube.product [i] b c ++ Cube.product a b c := by simp [Cube.product]
    have h1 : (Cube.product [i] b c).map (fun p => f p.2.1) = (b.flatMap fun j => c.map fun k => (j, k)).map fun q => f q.1 := by
      simp [Cube.product, List.map_flatMap, Function.comp_def]
    rw [h, List.map_append, List.sum_append, ih, h1, hin, List.length_cons]
    push_cast
    ring

theorem sum_thd (f : Nat → R) (a b c : List Nat) :
    ((Cube.product a b c).map fun p => f p.2.2).sum = (a.length * b.length : Nat) * (c.map f).sum := by
  have hin : ∀ b : List Nat, ((b.flatMap fun j => c.map fun k => (j, k)).map fun q => f q.2).sum = b.length * (c.map f).sum := by
    intro b
    induction b with
    | nil => simp
    | cons j b ih =>
      rw [List.flatMap_cons, List.map_append, List.sum_append, ih, List.map_map, List.length_cons]
      simp only [Function.comp_def]
      push_cast
      ring
  induction a with
  | nil => simp [Cube.product]
  | cons i a ih =>
    have h : Cube.product (i :: a) b c = Cube.product [i] b c ++ Cube.product a b c := by simp [Cube.product]
    have h1 : (Cube.product [i] b c).map (fun p => f p.2.2) = (b.flatMap fun j => c.map fun k => (j, k)).map fun q => f q.2 := by
      simp [Cube.product, List.map_flatMap, Function.comp_def]
    rw [h, List.map_append, List.sum_append, ih, h1, hin, List.length_cons]
    push_cast
    ring

theorem sum_along (n : Nat) (hn : 1 ≤ n) : ((List.range (n + 1)).map fun (i : Nat) => (i : R) / (n : R)).sum = (n + 1 : Nat) / 2 := by
  have h : ∀ k : Nat, ((List.range (k + 1)).map fun (i : Nat) => (i : R) / (n : R)).sum = (k * (k + 1) : Nat) / (2 * n) := by
    intro k
    have hn' : (n : R) ≠ 0 := Nat.cast_ne_zero.2 (by omega)
    induction k with
    | zero => simp
    | succ k ih =>
      rw [List.range_succ, List.map_append, List.sum_append, ih]
      simp only [List.map_cons, List.map_nil, List.sum_cons, List.sum_nil, add_zero]
      push_cast
      field_simp
      ring
  have hn' : (n : R) ≠ 0 := Nat.cast_ne_zero.2 (by omega)
  rw [h n]
  push_cast
  field_simp

/-- The coordinates of the nodes of a cube in a direction go from 0 to 1, with mean 1/2. -/
theorem axis_summary {l : List Ijk} {g : Ijk → Nat} {n k : Nat} (hn : 1 ≤ n) (hle : ∀ p ∈ l, g p ≤ n) (h0 : ∃ p ∈ l, g p = 0)
    (h1 : ∃ p ∈ l, g p = n) (hlen : l.length = k * (n + 1))
    (hsum : (l.map fun p => (g p : R) / (n : R)).sum = (k : Nat) * ((List.range (n + 1)).map fun (i : Nat) => (i : R) / (n : R)).sum) :
    Summary (l.map fun p => (g p : R) / (n : R)) 0 (1 / 2) 1 := by
  have hpos : (0 : R) < n := by exact_mod_cast hn
  refine ⟨⟨?_, ?_⟩, ?_, ?_, ?_⟩
  · obtain ⟨p, hp, h⟩ := h0
    exact List.mem_map.2 ⟨p, hp, by rw [h]; simp⟩
  · intro x hx
    obtain ⟨p, -, rfl⟩ := List.mem_map.1 hx
    exact div_nonneg (Nat.cast_nonneg _) hpos.le
  · rw [hsum, sum_along n hn, List.length_map, hlen]
    have hk : k ≠ 0 := by
      rintro rfl
      rw [Nat.zero_mul] at hlen
      obtain ⟨p, hp, -⟩ := h0
      rw [List.eq_nil_of_length_eq_zero hlen] at hp
      cases hp
    have hk' : (k : R) ≠ 0 := Nat.cast_ne_zero.2 hk
    have hn1 : ((n : R) + 1) ≠ 0 := by positivity
    push_cast
    field_simp
  · obtain ⟨p, hp, h⟩ := h1
    exact List.mem_map.2 ⟨p, hp, by rw [h, div_self hpos.ne']⟩
  · intro x hx
    obtain ⟨p, hp, rfl⟩ := List.mem_map.1 hx
    rw [div_le_one hpos]
    exact_mod_cast hle p hp

theorem nodeIndex_mono {c : Cube} {p q : Ijk} (h1 : p.1 ≤ q.1) (h2 : p.2.1 ≤ q.2.1) (h3 : p.2.2 ≤ q.2.2) :
    c.nodeIndex p ≤ c.nodeIndex q :=
  Nat.add_le_add h3 (Nat.mul_le_mul le_rfl (Nat.add_le_add h2 (Nat.mul_le_mul le_rfl h1)))

theorem mark_text {c : Cube} {a b d : List Nat} {p q : Ijk} (hp : p ∈ Cube.product a b d) (hq : q ∈ Cube.product a b d)
    (h : ∀ r ∈ Cube.product a b d, (p.1 ≤ r.1 ∧ p.2.1 ≤ r.2.1 ∧ p.2.2 ≤ r.2.2) ∧ r.1 ≤ q.1 ∧ r.2.1 ≤ q.2.1 ∧ r.2.2 ≤ q.2.2) (n : Nat)
    (hn : n = a.length * (b.length * d.length)) :
    indexText (.list ((Cube.product a b d).map fun p => (c.nodeIndex p : Int))) =
      .ok (.list (c.nodeIndex p) (c.nodeIndex q) n) := by
  rw [indexText_eq]
  refine ⟨by rw [hn, List.length_map, length_product], ⟨List.mem_map_of_mem hp, ?_⟩, List.mem_map_of_mem hq, ?_⟩
  · intro x hx
    obtain ⟨r, hr, rfl⟩ := List.mem_map.1 hx
    obtain ⟨⟨h1, h2, h3⟩, -⟩ := h r hr
    exact_mod_cast nodeIndex_mono h1 h2 h3
  · intro x hx
    obtain ⟨r, hr, rfl⟩ := List.mem_map.1 hx
    obtain ⟨-, h1, h2, h3⟩ := h r hr
    exact_mod_cast nodeIndex_mono h1 h2 h3

theorem cells_text (c : Cube) (h : c.elemIjk ≠ []) :
    indexText (.list (c.elemIjk.map fun p => (c.elemIndex p : Int))) = .ok (.list 0 (c.ncell - 1 : Nat) c.ncell) := by
  have hl : (c.elemIjk.map fun p => (c.elemIndex p : Int)) = (List.range c.ncell).map fun (k : Nat) => (k : Int) := by
    rw [← elems_numbers, List.map_map]; rfl
  have hpos : 0 < c.ncell := by
    have := congrArg List.length (elems_numbers c)
    rw [List.length_map, List.length_range] at this
    have h2 := List.length_pos_iff.2 h
    omega
  rw [hl, indexText_eq]
  refine ⟨by simp, ⟨List.mem_map.2 ⟨0, List.mem_range.2 hpos, rfl⟩, ?_⟩, List.mem_map.2 ⟨c.ncell - 1, List.mem_range.2 (by omega), rfl⟩, ?_⟩
  · intro x hx
    obtain ⟨k, -, rfl⟩ := List.mem_map.1 hx
    exact Int.natCast_nonneg k
  · intro x hx
    obtain ⟨k, hk, rfl⟩ := List.mem_map.1 hx
    have := List.mem_range.1 hk
    exact_mod_cast (by omega : k ≤ c.ncell - 1)

/-- C89: what is printed on a cube. -/
theorem C89_cube (c : Cube) (hx : 1 ≤ c.nx) (hy : 1 ≤ c.ny) (hz : 1 ≤ c.nz) (m : Mesh R) (hm : c.exportMesh = .ok m) :
    lines m = .ok ([.nnode ((c.nx + 1) * (c.ny + 1) * (c.nz + 1)), .coord 'x' 0 (1 / 2) 1, .coord 'y' 0 (1 / 2) 1, .coord 'z' 0 (1 / 2) 1,
      .ncell (c.nx * c.ny * c.nz),
      .elems "hexa8" [c.nx * c.ny * c.nz, 8] (.list 0 (c.nx * c.ny * c.nz - 1 : Nat) (c.nx * c.ny * c.nz)),
      .nface 0, .noFaces, .bocos ["imin", "imax", "jmin", "jmax", "kmin", "kmax"]] ++
      (cubeSides c).map fun s => .mark s.1 .bdnode
        (.list (c.nodeIndex (lowCorner s.2.1 s.2.2)) (c.nodeIndex (highCorner c s.2.1 s.2.2)) (sideSize c s.2.1))) := by
  have hne := elemIjk_ne_nil hx hy hz
  rw [exportMesh_eq c hne] at hm
  cases hm
  have e1 : coordLine 'x' (c.nodesIjk.map fun p => (p.1 : R) / (c.nx : R)) = .ok (.coord 'x' 0 (1 / 2) 1) := by
    refine coordLine_eq.2 ⟨_, _, _, rfl, axis_summary (g := fun p => p.1) (k := (c.ny + 1) * (c.nz + 1)) hx ?_ ⟨(0, 0, 0), ?_, rfl⟩
      ⟨(c.nx, 0, 0), ?_, rfl⟩ ?_ ?_⟩
    · intro p hp
      have := (mem_product.1 hp).1
      rw [List.mem_range] at this
      omega
    · exact mem_product.2 (by simp)
    · exact mem_product.2 (by simp)
    · rw [Cube.nodesIjk, length_product]; simp only [List.length_range]; ring
    · have := sum_fst (fun i => (i : R) / (c.nx : R)) (List.range (c.nx + 1)) (List.range (c.ny + 1)) (List.range (c.nz + 1))
      simp only [List.length_range] at this
      exact this
  have e2 : coordLine 'y' (c.nodesIjk.map fun p => (p.2.1 : R) / (c.ny : R)) = .ok (.coord 'y' 0 (1 / 2) 1) := by
    refine coordLine_eq.2 ⟨_, _, _, rfl, axis_summary (g := fun p => p.2.1) (k := (c.nx + 1) * (c.nz + 1)) hy ?_ ⟨(0, 0, 0), ?_, rfl⟩
      ⟨(0, c.ny, 0), ?_, rfl⟩ ?_ ?_⟩
    · intro p hp
      have := (mem_product.1 hp).2.1
      rw [List.mem_range] at this
      omega
    · exact mem_product.2 (by simp)
    · exact mem_product.2 (by simp)
    · rw [Cube.nodesIjk, length_product]; simp only [List.length_range]; ring
    · have := sum_snd (fun i => (i : R) / (c.ny : R)) (List.range (c.nx + 1)) (List.range (c.ny + 1)) (List.range (c.nz + 1))
      simp only [List.length_range] at this
      exact this
  have e3 : coordLine 'z' (c.nodesIjk.map fun p => (p.2.2 : R) / (c.nz : R)) = .ok (.coord 'z' 0 (1 / 2) 1) := by
    refine coordLine_eq.2 ⟨_, _, _, rfl, axis_summary (g := fun p => p.2.2) (k := (c.nx + 1) * (c.ny + 1)) hz ?_ ⟨(0, 0, 0), ?_, rfl⟩
      ⟨(0, 0, c.nz), ?_, rfl⟩ ?_ ?_⟩
    · intro p hp
      have := (mem_product.1 hp).2.2
      rw [List.mem_range] at this
      omega
    · exact mem_product.2 (by simp)
    · exact mem_product.2 (by simp)
    · rw [Cube.nodesIjk, length_product]; simp only [List.length_range]; ring
    · have := sum_thd (fun i => (i : R) / (c.nz : R)) (List.range (c.nx + 1)) (List.range (c.ny + 1)) (List.range (c.nz + 1))
      simp only [List.length_range] at this
      exact this
  have e4 : cellLines (R := R) (some (cubeConn c)) = .ok [.elems "hexa8" [c.ncell, 8] (.list 0 (c.ncell - 1 : Nat) c.ncell)] := by
    show connLines (cubeConn c) = _
    unfold connLines cubeConn
    rw [List.mapM_cons]
    refine bind_eq_ok.2 ⟨_, bind_eq_ok.2 ⟨_, cells_text c hne, rfl⟩, ?_⟩
    simp only [shape_eq, List.length_map, length_elemIjk]
    rfl
  have e6 : (cubeMarks c).mapM (markLine (R := R)) = .ok ((cubeSides c).map fun s => .mark s.1 .bdnode
        (.list (c.nodeIndex (lowCorner s.2.1 s.2.2)) (c.nodeIndex (highCorner c s.2.1 s.2.2)) (sideSize c s.2.1))) := by
    rw [mapM_ok_iff]
    have key : ∀ (name : String) (a b d : List Nat) (p q : Ijk) (n : Nat), p ∈ Cube.product a b d → q ∈ Cube.product a b d →
        (∀ r ∈ Cube.product a b d, (p.1 ≤ r.1 ∧ p.2.1 ≤ r.2.1 ∧ p.2.2 ≤ r.2.2) ∧ r.1 ≤ q.1 ∧ r.2.1 ≤ q.2.1 ∧ r.2.2 ≤ q.2.2) →
        n = a.length * (b.length * d.length) →
        markLine (R := R) (name, ⟨name, .bdnode, "boundary", .list ((Cube.product a b d).map fun p => (c.nodeIndex p : Int)), none⟩) =
          .ok (.mark name .bdnode (.list (c.nodeIndex p) (c.nodeIndex q) n)) := by
      intro name a b d p q n hp hq h hn
      exact bind_eq_ok.2 ⟨_, mark_text hp hq h n hn, rfl⟩
    simp only [cubeMarks, Cube.marks, cubeSides, List.map_cons, List.map_nil, List.forall₂_cons, List.forall₂_nil_left_iff, and_true]
    refine ⟨?_, ?_, ?_, ?_, ?_, ?_⟩
    all_goals
      refine key _ _ _ _ _ _ _ (mem_product.2 ?_) (mem_product.2 ?_) ?_ ?_
      · simp [lowCorner]
      · simp [highCorner]
      · intro r hr
        have := mem_product.1 hr
        simp only [List.mem_range, List.mem_singleton] at this
        simp only [lowCorner, highCorner]
        omega
      · simp [sideSize]
  unfold lines
  simp only [cubeMesh]
  rw [e1, e2, e3]
  simp only [Except_bind_ok]
  rw [e4]
  simp only [Except_bind_ok]
  rw [e6, length_elemIjk]
  rfl

end

/-! ## Examples -/

/-- A grid of 2 × 1 × 3 cells. -/
example := C89_cube (R := Rat) ⟨2, 1, 3⟩ (by decide) (by decide) (by decide) _ rfl

/-- Something is printed on it. -/
example : (do let m ← (Cube.exportMesh (R := Rat) ⟨2, 1, 3⟩); lines m).toOption.map List.length = some 15 := by decide +kernel

/-- `C89_mesh` on it. -/
example : ∃ (m : Mesh Rat) (x y z : List Rat) (L : List (Line Rat)) (a v b : Rat), Cube.exportMesh (R := Rat) ⟨2, 1, 3⟩ = .ok m ∧
    m.coords = some (x, y, z) ∧ lines m = .ok L ∧ Line.coord 'x' a v b ∈ L ∧ Summary x a v b := by
  obtain ⟨m, hm⟩ := exists_of_isOk (x := Cube.exportMesh (R := Rat) ⟨2, 1, 3⟩) (by decide +kernel)
  have hc : ((Cube.exportMesh (R := Rat) ⟨2, 1, 3⟩).map fun m => m.coords.isSome) = .ok true := by decide +kernel
  have hl : ((Cube.exportMesh (R := Rat) ⟨2, 1, 3⟩).map fun m => (lines m).isOk) = .ok true := by decide +kernel
  rw [hm] at hc hl
  obtain ⟨⟨x, y, z⟩, hc⟩ := Option.isSome_iff_exists.1 (Except.ok.inj hc)
  obtain ⟨L, hL⟩ := exists_of_isOk (Except.ok.inj hl)
  obtain ⟨a, v, b, _, _, _, _, _, _, _, _, _, e, h, -⟩ := C89_mesh m hc hL
  exact ⟨m, x, y, z, L, a, v, b, hm, hc, hL, by rw [e]; simp, h⟩

/-- The numbers of cells printed on it add up. -/
example := C89_counts (R := Rat) (cubeConn ⟨2, 1, 3⟩) (cubeConn_wf _) (cells := [.elems "hexa8" [6, 8] (.list 0 5 6)])
  (.cons ⟨_, rfl, indexText_eq.1 (by decide +kernel)⟩ .nil)

/-- Two sets of faces. -/
example := C89_face_counts (R := Rat)
  [("internal", ⟨⟨2, [("tri3", ⟨.range 0 0, ⟨some 3, [[0, 1, 2]]⟩⟩), ("quad4", ⟨.range 1 1, ⟨some 4, [[0, 1, 2, 3]]⟩⟩)]⟩, none⟩),
    ("boundary", ⟨⟨0, []⟩, none⟩)] (by
      intro p hp
      rcases List.mem_cons.1 hp with rfl | hp
      · refine ⟨by decide, ?_, by decide⟩
        intro q hq
        rcases List.mem_cons.1 hq with rfl | hq
        · exact ⟨⟨[0], rfl, rfl⟩, by unfold Arr2.WF; decide⟩
        · rw [List.mem_singleton.1 hq]
          exact ⟨⟨[1], rfl, rfl⟩, by unfold Arr2.WF; decide⟩
      · rw [List.mem_singleton.1 hp]
        exact ⟨by decide, fun q hq => (nomatch hq), by decide⟩)
  (faces := [.faces "internal" ["tri3", "quad4"], .elems "tri3" [1, 3] (.range 0 0), .elems "quad4" [1, 4] (.range 1 1), .faces "boundary" []])
  (.inr ⟨by decide, [[_, _, _], [_]], rfl, .cons ⟨_, rfl, .cons ⟨_, rfl, ⟨rfl, rfl⟩⟩ (.cons ⟨_, rfl, ⟨rfl, rfl⟩⟩ .nil)⟩
    (.cons ⟨_, rfl, .nil⟩ .nil)⟩)

/-- A V4 vector variable: one line per component. -/
example : vectorStatsV4 (R := Rat) "U" 2 [[0, 1], [4, 3]] = .ok [⟨"U", some 0, 0, 2, 4⟩, ⟨"U", some 1, 1, 2, 3⟩] := by decide +kernel

/-- The same variable in a V3 file: both lines give the values of the whole array. -/
example : vectorStats (R := Rat) "U" 2 [[0, 1], [4, 3]] = .ok [⟨"U", some 0, 0, 2, 4⟩, ⟨"U", some 1, 0, 2, 4⟩] := by decide +kernel

end Cfd.Report
