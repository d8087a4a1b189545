import Mathlib.Algebra.BigOperators.Group.List.Basic
import Mathlib.Data.List.Zip
import Mathlib.Tactic.Abel
import Mathlib.Tactic.Ring
import Verif.Spec.Closure
import Verif.Props.Elements

/-! Balance of the faces of a cell. -/

namespace Cfd
open Spec Spec.Ic3 ElemConn

variable {M : Type} [AddCommGroup M]

theorem contour_rotate (f : List Int) (n : Nat) : contour (f.rotate n) = (contour f).rotate n := by
  unfold contour
  rw [List.rotate_rotate, Nat.add_comm, ← List.rotate_rotate]
  exact (List.zipWith_rotate_distrib Prod.mk f (f.rotate 1) n (by simp)).symm

theorem circulation_rotated (w : Int → Int → M) {f g : List Int} (h : f.IsRotated g) :
    circulation w f = circulation w g := by
  obtain ⟨n, rfl⟩ := h
  unfold circulation
  rw [contour_rotate]
  exact (((List.rotate_perm _ n).map _).sum_eq).symm

theorem contour_reverse (f : List Int) : (contour f.reverse).Perm ((contour f).map Prod.swap) := by
  cases f with
  | nil => exact List.Perm.refl _
  | cons a t =>
    have h1 : (contour (a :: t).reverse).Perm (contour (a :: t.reverse)) := by
      have h : (a :: t).reverse = (a :: t.reverse).rotate 1 := by simp
      rw [h, contour_rotate]
      exact List.rotate_perm _ _
    refine h1.trans ?_
    have h2 : contour (a :: t.reverse) = (((t ++ [a]).zip (a :: t))).reverse := by
      unfold contour
      have h : ((t ++ [a]).zip (a :: t)).reverse = (t ++ [a]).reverse.zip (a :: t).reverse :=
        List.reverse_zipWith (by simp)
      rw [h]
      simp
    rw [h2]
    refine (List.reverse_perm _).trans (List.Perm.of_eq ?_)
    unfold contour
    rw [List.zip_swap]
    simp

theorem circulation_reverse (w : Int → Int → M) (hw : ∀ a b, w a b = - w b a) (f : List Int) :
    circulation w f.reverse = - circulation w f := by
  unfold circulation
  rw [((contour_reverse f).map _).sum_eq, List.map_map, List.sum_neg, List.map_map]
  congr 1
  apply List.map_congr_left
  intro e _
  exact hw e.2 e.1

theorem contour_map (f : List Nat) (g : Nat → Int) :
    contour (f.map g) = (dirEdges f).map fun e => (g e.1, g e.2) := by
  unfold contour dirEdges
  rw [← List.map_rotate, List.zip_map]
  rfl

/-- In a closed surface each edge and its opposite can be paired. -/
theorem edges_paired : ∀ tbl ∈ faceTables, ∀ et ∈ volumeTypes,
    ((facesOf tbl et).flatMap dirEdges).Perm
      (((facesOf tbl et).flatMap dirEdges).filter (fun e => decide (e.1 < e.2)) ++
       (((facesOf tbl et).flatMap dirEdges).filter fun e => decide (e.1 < e.2)).map Prod.swap) := by
  decide +kernel

/-- The circulations along the faces of a cell cancel. -/
theorem circulation_cell (w : Int → Int → M) (hw : ∀ a b, w a b = - w b a) {tbl : FaceTable} (ht : tbl ∈ faceTables)
    {et : String} (het : et ∈ volumeTypes) (g : Nat → Int) :
    ((facesOf tbl et).map fun f => circulation w (f.reverse.map g)).sum = 0 := by
  have h1 : ∀ f : List Nat, circulation w (f.reverse.map g) = - ((dirEdges f).map fun e => w (g e.1) (g e.2)).sum := by
    intro f
    rw [List.map_reverse, circulation_reverse w hw, circulation, contour_map, List.map_map]
    rfl
  have h2 : ∀ l : List (List Nat), (l.map fun f => circulation w (f.reverse.map g)).sum =
      - ((l.flatMap dirEdges).map fun e => w (g e.1) (g e.2)).sum := by
    intro l
    induction l with
    | nil => simp
    | cons f t ih =>
      rw [List.map_cons, List.sum_cons, ih, h1, List.flatMap_cons, List.map_append, List.sum_append]
      abel
  rw [h2, ((edges_paired tbl ht et het).map _).sum_eq, List.map_append, List.sum_append, List.map_map]
  generalize ((facesOf tbl et).flatMap dirEdges).filter (fun e => decide (e.1 < e.2)) = P
  rw [neg_eq_zero]
  induction P with
  | nil => simp
  | cons e t ih =>
    simp only [List.map_cons, List.sum_cons, Function.comp_apply, Prod.fst_swap, Prod.snd_swap]
    rw [hw (g e.2) (g e.1)]
    calc _ = (t.map fun e => w (g e.1) (g e.2)).sum + (t.map ((fun e => w (g e.1) (g e.2)) ∘ Prod.swap)).sum := by abel
      _ = 0 := ih

theorem edges_plane : ∀ tbl ∈ faceTables, ∀ et ∈ ["tri3", "quad4"], ∀ f ∈ facesOf tbl et, f.length = 2 := by
  decide +kernel

/-- The edges of a plane cell form a closed contour. -/
theorem span_cell (X : Int → M) {tbl : FaceTable} (ht : tbl ∈ faceTables) {et : String} (het : et ∈ ["tri3", "quad4"])
    (g : Nat → Int) : ((facesOf tbl et).map fun f => span X (f.reverse.map g)).sum = 0 := by
  have h1 : ∀ f ∈ facesOf tbl et, span X (f.reverse.map g) = X (g (f.headD 0)) - X (g (f.getLastD 0)) := by
    intro f hf
    have hl := edges_plane tbl ht et het f hf
    match f, hl with
    | [a, b], _ => simp [span]
  rw [List.map_congr_left h1]
  have h2 := C11_closed_plane tbl ht et het
  have h3 : ∀ l : List (List Nat), (l.map fun f => X (g (f.headD 0)) - X (g (f.getLastD 0))).sum =
      ((l.map (·.headD 0)).map fun k => X (g k)).sum - ((l.map (·.getLastD 0)).map fun k => X (g k)).sum := by
    intro l
    induction l with
    | nil => simp
    | cons f t ih => simp only [List.map_cons, List.sum_cons, ih]; abel
  rw [h3, (h2.map _).sum_eq, sub_self]

/-! ## Sums over the faces of cells -/

theorem sum_ite_countP (L : List Face) (p : Face → Bool) (g : M) (h : L.countP p = 1) :
    (L.map fun f => if p f then g else 0).sum = g := by
  have : ∀ L : List Face, (L.map fun f => if p f then g else 0).sum = L.countP p • g := by
    intro L
    induction L with
    | nil => simp
    | cons f t ih =>
      rw [List.map_cons, List.sum_cons, ih, List.countP_cons]
      by_cases hf : p f
      · simp [hf, add_nsmul, one_nsmul, add_comm]
      · simp [hf]
  rw [this, h, one_nsmul]

/-- Faces of cells can be counted face by face. -/
theorem sum_by_faces (L : List Face) (G : List Int × Int → M) : ∀ occ : List (List Int × Int),
    (∀ o ∈ occ, (L.countP fun f => f.1.isPerm o.1) = 1) →
    (occ.map G).sum = (L.map fun f => ((occ.filter fun o => o.1.isPerm f.1).map G).sum).sum := by
  intro occ
  induction occ with
  | nil => intro _; simp
  | cons o t ih =>
    intro h
    have hsym : ∀ f : Face, o.1.isPerm f.1 = f.1.isPerm o.1 := by
      intro f
      rw [Bool.eq_iff_iff, List.isPerm_iff, List.isPerm_iff]
      exact ⟨List.Perm.symm, List.Perm.symm⟩
    have h1 : ∀ f : Face, (((o :: t).filter fun o => o.1.isPerm f.1).map G).sum =
        (if f.1.isPerm o.1 then G o else 0) + ((t.filter fun o => o.1.isPerm f.1).map G).sum := by
      intro f
      rw [List.filter_cons, hsym]
      by_cases hf : f.1.isPerm o.1 = true
      · simp [hf]
      · simp [hf]
    simp only [h1]
    rw [List.map_cons, List.sum_cons, List.sum_map_add, ih fun o ho => h o (List.mem_cons_of_mem _ ho),
      sum_ite_countP L (fun f => f.1.isPerm o.1) (G o) (h o (List.mem_cons_self ..))]

theorem balance_eq (F : Face → M) (l : List Face) (a : Int) :
    balance F l a = (l.map fun f => (if f.2.1 = a then F f else 0) - (if f.2.2 = a then F f else 0)).sum := by
  unfold balance
  induction l with
  | nil => simp
  | cons f t ih =>
    rw [List.map_cons, List.sum_cons, ← ih, List.filter_cons, List.filter_cons]
    by_cases h1 : f.2.1 = a <;> by_cases h2 : f.2.2 = a <;> simp [h1, h2] <;> abel

/-- The balance of a cell is the sum over the faces the table gives to it. -/
theorem balance_of_cells {tbl : FaceTable} {c : ElemConn} {lb li : List Face} (hf : FacesOf tbl c lb li)
    (Φ : List Int → M) (hΦ : ∀ o₁ o₂, (facesOn tbl c o₁.1).Perm [o₁, o₂] → Φ o₂.1 = - Φ o₁.1) (a : Int) (ha : a ≠ -1) :
    balance (fun f => Φ f.1) (lb ++ li) a =
      ((facesOfCells tbl c).map fun o => if o.2 = a then Φ o.1 else 0).sum := by
  rw [sum_by_faces (lb ++ li) _ _ hf.once, balance_eq]
  congr 1
  apply List.map_congr_left
  intro f hmem
  rw [List.mem_append] at hmem
  rcases hmem with hb | hi
  · obtain ⟨a', h1, h2⟩ := hf.boundary f hb
    unfold facesOn at h2
    rw [h2, h1]
    simp [Ne.symm ha]
  · obtain ⟨nodes, h1⟩ := hf.internal f hi
    have h2 := hΦ (f.1, f.2.1) (nodes, f.2.2) h1
    unfold facesOn at h1
    rw [(h1.map _).sum_eq]
    simp only at h2
    simp only [List.map_cons, List.map_nil, List.sum_cons, List.sum_nil, add_zero, h2]
    by_cases e : f.2.2 = a <;> simp [e, sub_eq_add_neg]

/-- If the contributions of the faces of each element cancel, so do those of the mesh. -/
theorem closed_of_elements {tbl : FaceTable} {c : ElemConn} (Φ : List Int → M)
    (h : ∀ x ∈ elements c, ((facesOf tbl x.1).map fun f => Φ (f.reverse.map fun k => x.2.2.getD k 0)).sum = 0) (a : Int) :
    ((facesOfCells tbl c).map fun o => if o.2 = a then Φ o.1 else 0).sum = 0 := by
  unfold facesOfCells
  revert h
  induction elements c with
  | nil => intro _; simp
  | cons x t ih =>
    intro h
    rw [List.flatMap_cons, List.map_append, List.sum_append, ih fun y hy => h y (List.mem_cons_of_mem _ hy), add_zero]
    have h1 := h x (List.mem_cons_self ..)
    have h2 : (((tbl.get? x.1).getD []).flatMap fun q =>
        q.2.map fun f => (f.reverse.map (fun k => x.2.2.getD k 0), x.2.1)) =
        (facesOf tbl x.1).map fun f => (f.reverse.map (fun k => x.2.2.getD k 0), x.2.1) := by
      unfold facesOf
      rw [List.map_flatMap]
    rw [h2, List.map_map]
    by_cases e : x.2.1 = a
    · rw [← h1]
      congr 1
      apply List.map_congr_left
      intro f _
      simp [e]
    · have : ((fun o : List Int × Int => if o.2 = a then Φ o.1 else 0) ∘
          fun f : List Nat => (f.reverse.map (fun k => x.2.2.getD k 0), x.2.1)) = fun _ => 0 := by
        funext f
        simp [e]
      rw [this]
      simp

theorem sum_ite_mem {l : List Int} (hn : l.Nodup) (b : Int) (g : M) :
    (l.map fun a => if b = a then g else 0).sum = if b ∈ l then g else 0 := by
  induction l with
  | nil => simp
  | cons a t ih =>
    rw [List.nodup_cons] at hn
    rw [List.map_cons, List.sum_cons, ih hn.2]
    by_cases h : b = a
    · subst h; simp [hn.1]
    · simp [h]

end Cfd
