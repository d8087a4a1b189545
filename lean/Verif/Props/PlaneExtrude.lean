import Verif.Lemmas.PlaneExtrude
import Verif.Props.PlaneValues

/-!
# C94: averages over the planes of an extruded mesh

A plane mesh of quadrangles extruded along the third direction (`Mesh.export_extruded`), converted to VTK (`vtkMesh`), then averaged over
its planes (`vtk_zconvolution`), in exact arithmetic.
-/

namespace Cfd.PlaneExtrude
open Cfd.Vtk Cfd.Spec Cfd.Spec.Vtk Cfd.Spec.PlaneValues Cfd.Spec.PlaneExtrude Cfd.PlaneValues Cfd.Spectrum Cfd.Spec.Spectrum

theorem grid_layered {m : Mesh ℝ} {c : ElemConn} {pts : List (ℝ × ℝ)} {level : ℝ} {quads : List (List Int)}
    (h : PlaneQuads m c pts level quads) {n : Nat} (hn : 2 ≤ n) {a e tol : ℝ} (h0 : 0 ≤ tol) (he : tol < e)
    (hs : Separated planeDist tol (quads.map (middle pts))) {g : Grid (ℝ × ℝ × ℝ)} (hi : g.items = hexas pts.length n quads)
    (hp : g.points = VtkConvert.lifted (regular n a e) (flat level pts)) :
    (∀ (i : Nat) r, g.items[i]? = some r → ∃ k q, k < n ∧ q ∈ quads ∧ r = (12, sweptNodes pts.length k q) ∧
      (centersXY g)[i]? = some (middle pts q) ∧ (centersZ g)[i]? = some (level + a + e / 2 + k * e)) ∧
    LayeredMesh g (quads.map (middle pts)) n (level + a + e / 2) e tol (centersXY g) (centersZ g) := by
  have hpl : g.points.length = (n + 1) * pts.length := by
    rw [hp]
    unfold VtkConvert.lifted
    rw [length_flatMap_const _ _ pts.length (by simp [flat])]
    simp [regular]
  have hmem : ∀ r ∈ g.items, ∃ k q, k < n ∧ q ∈ quads ∧ r = (12, sweptNodes pts.length k q) := by
    intro r hr
    rw [hi] at hr
    obtain ⟨k, hk, hr⟩ := List.mem_flatMap.1 hr
    obtain ⟨q, hq, rfl⟩ := List.mem_map.1 hr
    exact ⟨k, q, List.mem_range.1 hk, hq, rfl⟩
  have hctr : ∀ k q, k < n → q ∈ quads → center ((sweptNodes pts.length k q).filterMap (pointAt g)) =
      ((middle pts q).1, (middle pts q).2, level + a + e / 2 + k * e) := fun k q hk hq =>
    center_hexa hp hk (h.corners q hq).1 (h.corners q hq).2
  refine ⟨?_, ?_⟩
  · intro i r hr
    obtain ⟨k, q, hk, hq, rfl⟩ := hmem r (List.mem_of_getElem? hr)
    refine ⟨k, q, hk, hq, rfl, ?_, ?_⟩
    · unfold centersXY centers
      rw [List.map_map, List.getElem?_map, hr, Option.map_some, Function.comp_apply, hctr k q hk hq]
    · unfold centersZ centers
      rw [List.map_map, List.getElem?_map, hr, Option.map_some, Function.comp_apply, hctr k q hk hq]
  · refine ⟨?_, ?_, ?_, ⟨?_, ?_⟩, ?_, hn, h0, he, hs⟩
    · intro r hr
      obtain ⟨k, q, hk, hq, rfl⟩ := hmem r hr
      refine ⟨⟨by norm_num, by norm_num⟩, ?_⟩
      rw [hpl]
      exact sweptNodes_range hk (h.corners q hq).2
    · intro r hr
      obtain ⟨k, q, hk, hq, rfl⟩ := hmem r hr
      simp [sweptNodes, (h.corners q hq).1]
    · simp [centersZ, centers]
    · simp [centersXY, centersZ]
    · have hz : (centersXY g).zip (centersZ g) = (List.range n).flatMap fun k : Nat =>
          quads.map fun q => (middle pts q, level + a + e / 2 + k * e) := by
        have hz' : (centersXY g).zip (centersZ g) = (centers g).map fun p => ((p.1, p.2.1), p.2.2) := by
          unfold centersXY centersZ
          rw [List.zip_map']
        rw [hz']
        unfold centers
        rw [List.map_map, hi]
        unfold hexas
        rw [List.map_flatMap]
        apply List.flatMap_congr
        intro k hk
        rw [List.map_map]
        apply List.map_congr_left
        intro q hq
        simp only [Function.comp_apply]
        rw [hctr k q (List.mem_range.1 hk) hq]
      rw [hz, List.flatMap_map]
      exact flatMap_swap (fun q (k : Nat) => (middle pts q, level + a + e / 2 + (k : ℝ) * e)) quads (List.range n)
    · simpa using h.some

/-- **C94, layers.** A plane mesh of quadrangles whose middles are more than `2 tol` apart, extruded to `n` layers of height `e` (more
than `tol`), is converted to VTK: the cells are the hexahedra over the quadrangles between two successive heights, and the mesh meets the
conditions of the theorems on the averages over planes (C93). -/
theorem C94_layers (so : List Int → List Int) {m : Mesh ℝ} {c : ElemConn} {pts : List (ℝ × ℝ)} {level : ℝ} {quads : List (List Int)}
    (h : PlaneQuads m c pts level quads) (n : Nat) (hn : 2 ≤ n) (a e tol : ℝ) (h0 : 0 ≤ tol) (he : tol < e)
    (hs : Separated planeDist tol (quads.map (middle pts))) (domain : String) :
    ∃ m' g, m.exportExtruded so (0, 0, 1) (regular n a e) domain = .ok m' ∧ setMesh m' = .ok g ∧
      g.items.length = n * quads.length ∧
      (∀ (k j : Nat) q, k < n → quads[j]? = some q → shownCell g (k * quads.length + j) =
        some (12, cornersAt pts (level + (a + k * e)) q ++ cornersAt pts (level + (a + ((k + 1 : Nat) : ℝ) * e)) q)) ∧
      LayeredMesh g (quads.map (middle pts)) n (level + a + e / 2) e tol (centersXY g) (centersZ g) := by
  obtain ⟨m', g, h1, h2, h3, h4⟩ := extruded_grid so h n (by omega) a e domain
  refine ⟨m', g, h1, h2, ?_, ?_, (grid_layered h hn h0 he hs h3 h4).2⟩
  · rw [h3]
    unfold hexas
    rw [length_flatMap_const _ _ quads.length (by simp), List.length_range]
  · intro k j q hk hj
    unfold shownCell
    rw [h3]
    unfold hexas
    rw [getElem?_blocks _ _ quads.length (by simp) k j k (by simp [hk]) (List.getElem?_eq_some_iff.1 hj).1, List.getElem?_map, hj]
    simp only [Option.map_some]
    rw [shown_hexa h4 hk (h.corners q (List.mem_of_getElem? hj)).2]

/-- **C94, averages.** The averages over the planes of the extruded mesh are made: the slice has one cell for each quadrangle of the
plane mesh, the hexahedron over it in the first layer; the arrays of a variable have for each quadrangle the requested reductions of the
values above its middle, at the `n` heights in the middle of the layers. -/
theorem C94_slice (argsort : List ℝ → List Nat) (nn : List (ℝ × ℝ) → ℝ × ℝ → Nat) (so : List Int → List Int) (junk : Nat → Int)
    (ht : SortTools argsort nn so) {m : Mesh ℝ} {c : ElemConn} {pts : List (ℝ × ℝ)} {level : ℝ} {quads : List (List Int)}
    (h : PlaneQuads m c pts level quads) (n : Nat) (hn : 2 ≤ n) (a e tol : ℝ) (h0 : 0 ≤ tol) (he : tol < e)
    (hs : Separated planeDist tol (quads.map (middle pts))) (domain : String) :
    ∃ m' g, m.exportExtruded so (0, 0, 1) (regular n a e) domain = .ok m' ∧ setMesh m' = .ok g ∧
      ∀ (data : Dict String (List ℝ)) (rms phase snapshot : Bool) (nmode : Int) (select : Option (Dict String (List SelItem))),
        data.keys.Nodup → (∀ p ∈ data, p.2.length = n * quads.length) → SelectionWF data.keys select →
        NoCollision data.keys (defaultOptions rms phase snapshot nmode) select →
        (∀ var req v, requested data.keys (defaultOptions rms phase snapshot nmode) select var = some req →
          req "nmode" = some v → numberOf v < n) →
        ∃ (grid : Grid (ℝ × ℝ × ℝ)) (out : Dict String (List ℝ)) (qs : List (List Int)),
          zconvolution (planeNumbers exactModes argsort) (fun x => |x|) planeDist nn tol so junk g data
            (defaultOptions rms phase snapshot nmode) select (centersXY g) (centersZ g) = .ok (grid, out) ∧
          qs.Perm quads ∧ grid.items.length = quads.length ∧
          (∀ (j : Nat) q, qs[j]? = some q →
            shownCell grid j = some (12, cornersAt pts (level + a) q ++ cornersAt pts (level + (a + e)) q)) ∧
          ∀ var req p f, requested data.keys (defaultOptions rms phase snapshot nmode) select var = some req → Asked req p →
            data.get? var = some (atCenters f (centersXY g) (centersZ g)) →
            ∃ w, out.get? (p.label var) = some w ∧ w.map some = qs.map fun q =>
              p.value (planeNumbers exactModes argsort) (samples n (level + a + e / 2) e (f (middle pts q))) := by
  obtain ⟨m', g, h1, h2, h3, h4⟩ := extruded_grid so h n (by omega) a e domain
  obtain ⟨hcell, hm⟩ := grid_layered h hn h0 he hs h3 h4
  have hlen : g.items.length = n * quads.length := by
    rw [h3]
    unfold hexas
    rw [length_flatMap_const _ _ quads.length (by simp), List.length_range]
  refine ⟨m', g, h1, h2, ?_⟩
  intro data rms phase snapshot nmode select hdk hdl hsel hnc hmode
  obtain ⟨grid, out, ps, k1, k2, k3, k4, k5⟩ := C93_layers argsort nn so junk ht g _ _ _ n _ e tol hm data rms phase snapshot nmode select hdk
    (fun p hp => by rw [hlen]; exact hdl p hp) hsel hnc hmode
  obtain ⟨qs, hqs, hperm⟩ := List.perm_comp_forall₂ (r := fun p q => p = middle pts q) k2
    (List.forall₂_map_left_iff.2 (List.forall₂_same.2 fun q _ => rfl))
  have hps : ps = qs.map (middle pts) := by
    rw [← List.forall₂_eq_eq_eq, List.forall₂_map_right_iff]
    exact hqs
  have hnd : (quads.map (middle pts)).Nodup := separated_nodup h0 hs
  refine ⟨grid, out, qs, k1, hperm, ?_, ?_, ?_⟩
  · rw [k3, hps, List.length_map, hperm.length_eq]
  · intro j q hj
    obtain ⟨i, hi1, hi2, hi3⟩ := k4 j (middle pts q) (by rw [hps, List.getElem?_map, hj]; rfl)
    have hil : i < g.items.length := by
      have := (List.getElem?_eq_some_iff.1 hi1).1
      simpa [centersXY, centers] using this
    obtain ⟨k, q', hk, hq', hr, e1, e2⟩ := hcell i _ (List.getElem?_eq_getElem hil)
    rw [hi1, Option.some.injEq] at e1
    rw [hi2, Option.some.injEq] at e2
    have hqq : q = q' := List.inj_on_of_nodup_map hnd (hperm.mem_iff.1 (List.mem_of_getElem? hj)) hq' e1
    have hk0 : k = 0 := by
      have : (k : ℝ) * e = 0 := by linarith
      rcases mul_eq_zero.1 this with hz | hz
      · exact_mod_cast hz
      · linarith
    subst hqq hk0
    rw [hi3]
    unfold shownCell
    rw [List.getElem?_eq_getElem hil, hr, Option.map_some, shown_hexa h4 hk (h.corners q hq').2]
    norm_num
  · intro var req p f hr hp hd
    obtain ⟨w, hw1, hw2⟩ := k5 var req p f hr hp hd
    refine ⟨w, hw1, ?_⟩
    rw [hw2, hps, List.map_map]
    rfl

private theorem eq_map_of_some {α β : Type} {w : List β} {l : List α} {F : α → β} (h : w.map some = l.map fun p => some (F p)) :
    w = l.map F := by
  have : w.map some = (l.map F).map some := by rw [h, List.map_map]; rfl
  exact List.map_injective_iff.2 (Option.some_injective β) this

/-- **C94, field of the plane.** A variable that depends only on the position in the plane is given back: its average is the value at the
middle of each quadrangle, and its rms is 0. -/
theorem C94_plane_field (argsort : List ℝ → List Nat) (nn : List (ℝ × ℝ) → ℝ × ℝ → Nat) (so : List Int → List Int) (junk : Nat → Int)
    (ht : SortTools argsort nn so) {m : Mesh ℝ} {c : ElemConn} {pts : List (ℝ × ℝ)} {level : ℝ} {quads : List (List Int)}
    (h : PlaneQuads m c pts level quads) (n : Nat) (hn : 2 ≤ n) (a e tol : ℝ) (h0 : 0 ≤ tol) (he : tol < e)
    (hs : Separated planeDist tol (quads.map (middle pts))) (domain : String) (F : ℝ × ℝ → ℝ) (var : String) :
    ∃ m' g, m.exportExtruded so (0, 0, 1) (regular n a e) domain = .ok m' ∧ setMesh m' = .ok g ∧
      ∃ (grid : Grid (ℝ × ℝ × ℝ)) (out : Dict String (List ℝ)) (qs : List (List Int)),
        zconvolution (planeNumbers exactModes argsort) (fun x => |x|) planeDist nn tol so junk g
          [(var, atCenters (fun p _ => F p) (centersXY g) (centersZ g))] (defaultOptions true false false 0) none (centersXY g)
          (centersZ g) = .ok (grid, out) ∧ qs.Perm quads ∧ grid.items.length = quads.length ∧
        (∀ (j : Nat) q, qs[j]? = some q →
          shownCell grid j = some (12, cornersAt pts (level + a) q ++ cornersAt pts (level + (a + e)) q)) ∧
        out.get? (var ++ "_avg") = some (qs.map fun q => F (middle pts q)) ∧ out.get? (var ++ "_rms") = some (qs.map fun _ => 0) := by
  obtain ⟨m', g, h1, h2, h3⟩ := C94_slice argsort nn so junk ht h n hn a e tol h0 he hs domain
  obtain ⟨m'', g', h1', h2', hlen, -, -⟩ := C94_layers so h n hn a e tol h0 he hs domain
  rw [h1] at h1'
  cases h1'
  rw [h2] at h2'
  cases h2'
  have hreq : ∀ v req, requested (Dict.keys [(var, atCenters (fun p _ => F p) (centersXY g) (centersZ g))])
      (defaultOptions true false false 0) none v = some req → v = var ∧ req = (defaultOptions true false false 0).get? := by
    intro v req hr
    simp only [requested] at hr
    split at hr
    · rename_i hv
      exact ⟨by simpa [Dict.keys] using hv, (Option.some.inj hr).symm⟩
    · cases hr
  have hask : ∀ p : Product, Asked (defaultOptions true false false 0).get? p → p = .avg ∨ p = .rms := by
    intro p hp
    have hm : (defaultOptions true false false 0).get? "nmode" = some (.int 0) := by decide +kernel
    have hk : ∀ k : Nat, 1 ≤ k → (∃ v, (defaultOptions true false false 0).get? "nmode" = some v ∧ (k : Int) ≤ numberOf v) → False := by
      rintro k h1 ⟨v, hv, h2⟩
      rw [hm] at hv
      obtain rfl := Option.some.inj hv
      simp only [numberOf] at h2
      omega
    cases p with
    | snapshot =>
      obtain ⟨v, hv, h2⟩ := hp
      rw [show (defaultOptions true false false 0).get? "snapshot" = some (.bool false) from by decide +kernel] at hv
      obtain rfl := Option.some.inj hv
      cases h2
    | avg => exact .inl rfl
    | mode k => exact (hk k hp.1 hp.2).elim
    | phase k => exact (hk k hp.1.1 hp.1.2).elim
    | rms => exact .inr rfl
  obtain ⟨grid, out, qs, k1, k2, k3, k4, k5⟩ := h3 [(var, atCenters (fun p _ => F p) (centersXY g) (centersZ g))] true false false 0 none
    (by simp [Dict.keys]) (by
      intro p hp
      rw [List.mem_singleton] at hp
      subst hp
      rw [← hlen]
      simp [atCenters, centersXY, centersZ, centers]) trivial (by
      intro v v' req req' r r' p p' ha hb hab
      obtain ⟨rfl, rfl⟩ := hreq _ _ r
      obtain ⟨rfl, rfl⟩ := hreq _ _ r'
      refine ⟨rfl, ?_⟩
      have hne : ∀ v : String, v ++ "_avg" ≠ v ++ "_rms" := by
        intro v e
        have := congrArg String.toList e
        rw [String.toList_append, String.toList_append] at this
        exact absurd (List.append_cancel_left this) (by decide)
      rcases hask p ha with rfl | rfl <;> rcases hask p' hb with rfl | rfl
      · rfl
      · exact absurd hab (hne _)
      · exact absurd hab.symm (hne _)
      · rfl) (by
      intro v req x hr hx
      obtain ⟨rfl, rfl⟩ := hreq _ _ hr
      rw [show (defaultOptions true false false 0).get? "nmode" = some (.int 0) from by decide +kernel] at hx
      obtain rfl := Option.some.inj hx
      simp only [numberOf]
      omega)
  have hr : requested (Dict.keys [(var, atCenters (fun p _ => F p) (centersXY g) (centersZ g))])
      (defaultOptions true false false 0) none var = some (defaultOptions true false false 0).get? := by
    simp [requested, Dict.keys]
  have hd : Dict.get? [(var, atCenters (fun p _ => F p) (centersXY g) (centersZ g))] var =
      some (atCenters (fun p _ => F p) (centersXY g) (centersZ g)) := by simp [Dict.get?]
  have hn' : (n : ℝ) ≠ 0 := Nat.cast_ne_zero.2 (by omega)
  refine ⟨m', g, h1, h2, grid, out, qs, k1, k2, k3, k4, ?_, ?_⟩
  · obtain ⟨w, hw, e1⟩ := k5 var _ .avg _ hr (by exact ⟨_, rfl, rfl⟩) hd
    rw [show var ++ "_avg" = Product.label var .avg from rfl, hw, eq_map_of_some e1, Option.some.injEq]
    apply List.map_congr_left
    intro q _
    show average _ = _
    unfold average samples
    simp
    field_simp
  · obtain ⟨w, hw, e1⟩ := k5 var _ .rms _ hr (by exact ⟨_, rfl, rfl⟩) hd
    rw [show var ++ "_rms" = Product.label var .rms from rfl, hw, eq_map_of_some e1, Option.some.injEq]
    apply List.map_congr_left
    intro q _
    apply le_antisymm
    · refine deviation_le (c := F (middle pts q)) le_rfl ?_
      intro v hv
      unfold samples at hv
      obtain ⟨k, _, rfl⟩ := List.mem_map.1 hv
      simp
    · exact Real.sqrt_nonneg _

/-! ## Two squares, three layers -/

/-- Six points. -/
noncomputable def sixPts : List (ℝ × ℝ) := [(0, 0), (1, 0), (2, 0), (0, 1), (1, 1), (2, 1)]

/-- Two unit squares in the plane of height 5. -/
noncomputable def squares : Mesh ℝ :=
  { ncell := 2, nnode := 6, nface := 0
    cell2node := some ⟨2, [("quad4", ⟨.list [0, 1], ⟨some 4, [[0, 1, 4, 3], [1, 2, 5, 4]]⟩⟩)]⟩
    faces := []
    coords := some (sixPts.map (·.1), sixPts.map (·.2), sixPts.map fun _ => 5)
    bocos := [("left", ⟨"left", .bdnode, "boundary", .list [0, 3], none⟩)] }

theorem squares_plane : PlaneQuads squares ⟨2, [("quad4", ⟨.list [0, 1], ⟨some 4, [[0, 1, 4, 3], [1, 2, 5, 4]]⟩⟩)]⟩ sixPts 5
    [[0, 1, 4, 3], [1, 2, 5, 4]] where
  coords := rfl
  nnode := rfl
  cells := rfl
  wf := by
    refine ⟨by decide, ?_, by decide⟩
    intro p hp
    rw [List.mem_singleton] at hp
    subst hp
    exact ⟨⟨_, rfl, rfl⟩, by unfold Arr2.WF; decide⟩
  types := rfl
  rows := by decide
  some := by decide
  corners := by
    show ∀ q ∈ ([[0, 1, 4, 3], [1, 2, 5, 4]] : List (List Int)), q.length = 4 ∧ ∀ v ∈ q, 0 ≤ v ∧ v < ((6 : Nat) : Int)
    decide
  marks := by
    intro p hp
    replace hp := List.mem_singleton.1 hp
    subst hp
    exact ⟨rfl, by simp, by decide⟩
  names := by simp [squares, Dict.keys]

theorem squares_middles : [[0, 1, 4, 3], [1, 2, 5, 4]].map (middle sixPts) = [(1 / 2, 1 / 2), (3 / 2, 1 / 2)] := by
  simp [middle, mean, sixPts]
  norm_num

theorem squares_apart : Separated planeDist (1 / 10) ([[0, 1, 4, 3], [1, 2, 5, 4]].map (middle sixPts)) := by
  rw [squares_middles]
  have h1 : planeDist (1 / 2, 1 / 2) (3 / 2, 1 / 2) = 1 := by
    unfold planeDist
    norm_num
  intro i j a b ha hb hij
  have hi : i < 2 := (List.getElem?_eq_some_iff.1 ha).1
  have hj : j < 2 := (List.getElem?_eq_some_iff.1 hb).1
  have hi' : i = 0 ∨ i = 1 := by omega
  have hj' : j = 0 ∨ j = 1 := by omega
  rcases hi' with rfl | rfl <;> rcases hj' with rfl | rfl <;> simp at ha hb hij <;> subst ha hb
  · have := h1; norm_num at this ⊢; rw [this]; norm_num
  · rw [planeDist_symm]; have := h1; norm_num at this ⊢; rw [this]; norm_num

/-- Three layers of height 2 over the two squares: the second cell of the first layer. -/
example : ∃ m' g, squares.exportExtruded id (0, 0, 1) (regular 3 0 2) "fluid" = .ok m' ∧ setMesh m' = .ok g ∧ g.items.length = 6 ∧
    shownCell g 1 = some (12, [some (1, 0, 5), some (2, 0, 5), some (2, 1, 5), some (1, 1, 5),
      some (1, 0, 7), some (2, 0, 7), some (2, 1, 7), some (1, 1, 7)]) := by
  obtain ⟨m', g, h1, h2, h3, h4, -⟩ := C94_layers id squares_plane 3 (by decide) 0 2 (1 / 10) (by norm_num) (by norm_num) squares_apart "fluid"
  refine ⟨m', g, h1, h2, h3, ?_⟩
  have h5 := h4 0 1 [1, 2, 5, 4] (by decide) rfl
  simp [cornersAt, sixPts] at h5
  norm_num at h5
  exact h5

/-- The field `x + 10 y` is given back. -/
example : ∃ m' g, squares.exportExtruded id (0, 0, 1) (regular 3 0 2) "fluid" = .ok m' ∧ setMesh m' = .ok g ∧
    ∃ grid out qs, zconvolution (planeNumbers exactModes sortR) (fun x => |x|) planeDist nearestR (1 / 10) id (fun _ => 0) g
      [("T", atCenters (fun p _ => p.1 + 10 * p.2) (centersXY g) (centersZ g))] (defaultOptions true false false 0) none (centersXY g)
      (centersZ g) = .ok (grid, out) ∧ List.Perm qs [[0, 1, 4, 3], [1, 2, 5, 4]] ∧
      out.get? "T_avg" = some (qs.map fun q => (middle sixPts q).1 + 10 * (middle sixPts q).2) := by
  obtain ⟨m', g, h1, h2, grid, out, qs, k1, k2, -, -, k5, -⟩ := C94_plane_field sortR nearestR id (fun _ => 0) sortTools squares_plane 3
    (by decide) 0 2 (1 / 10) (by norm_num) (by norm_num) squares_apart "fluid" (fun p => p.1 + 10 * p.2) "T"
  exact ⟨m', g, h1, h2, grid, out, qs, k1, k2, k5⟩

/-- The hypotheses of `C94_slice` hold. -/
example := C94_slice sortR nearestR id (fun _ => 0) sortTools squares_plane 3 (by decide) 0 2 (1 / 10) (by norm_num) (by norm_num)
  squares_apart "fluid"

end Cfd.PlaneExtrude
