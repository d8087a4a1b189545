import Verif.Lemmas.PlaneLayers
import Verif.Lemmas.PlaneValues
import Verif.Props.VtkConv
import Mathlib.Data.List.MinMax

/-!
# C93: what the averages over planes show

`vtk_zconvolution` in exact arithmetic, with the documented transforms of numpy, on a mesh of regular layers.
-/

namespace Cfd.PlaneValues
open Cfd.Vtk Cfd.Spec.PlaneValues Cfd.Spec.Vtk Cfd.Spec.Spectrum Cfd.Spectrum

variable {Q : Type}

/-- **C93, slice.** On a mesh of `n` regular layers with the same columns, its cells in any order, `vtk_zconvolution` succeeds. The slice
has one cell for each column, which shows the cell of the first layer in that column; each requested array of a variable has for each
column the requested reduction of the values of the variable up the column, from the first layer to the last. -/
theorem C93_layers (argsort : List ℝ → List Nat) (nn : List (ℝ × ℝ) → ℝ × ℝ → Nat) (so : List Int → List Int) (junk : Nat → Int)
    (ht : SortTools argsort nn so) (g : Grid Q) (cols xy : List (ℝ × ℝ)) (z : List ℝ) (n : Nat) (z0 h tol : ℝ)
    (hm : LayeredMesh g cols n z0 h tol xy z) (data : Dict String (List ℝ)) (rms phase snapshot : Bool) (nmode : Int)
    (select : Option (Dict String (List SelItem))) (hdk : data.keys.Nodup) (hlen : ∀ p ∈ data, p.2.length = g.items.length)
    (hsel : SelectionWF data.keys select) (hnc : NoCollision data.keys (defaultOptions rms phase snapshot nmode) select)
    (hmode : ∀ var req v, requested data.keys (defaultOptions rms phase snapshot nmode) select var = some req →
      req "nmode" = some v → numberOf v < n) :
    ∃ (grid : Grid Q) (out : Dict String (List ℝ)) (ps : List (ℝ × ℝ)),
      zconvolution (planeNumbers exactModes argsort) (fun x => |x|) planeDist nn tol so junk g data
        (defaultOptions rms phase snapshot nmode) select xy z = .ok (grid, out) ∧ ps.Perm cols ∧ grid.items.length = ps.length ∧
      (∀ (j : Nat) p, ps[j]? = some p → ∃ i, xy[i]? = some p ∧ z[i]? = some z0 ∧ shownCell grid j = shownCell g i) ∧
      ∀ var req a f, requested data.keys (defaultOptions rms phase snapshot nmode) select var = some req → Asked req a →
        data.get? var = some (atCenters f xy z) →
        ∃ w, out.get? (a.label var) = some w ∧
          w.map some = ps.map fun p => a.value (planeNumbers exactModes argsort) (samples n z0 h (f p)) := by
  set N := planeNumbers exactModes argsort with hN
  have h0 := hm.tolerance
  have hpos : 0 < h := lt_of_le_of_lt h0 hm.step
  obtain ⟨hxyz, hperm⟩ := hm.layers
  have hn0 : 0 < n := by have := hm.several; omega
  -- levels
  have hz1 : ∀ (i : Nat) (a : ℝ), z[i]? = some a → ∃ k : Nat, k < n ∧ a = z0 + k * h := by
    intro i a hi
    obtain ⟨hi', e⟩ := List.getElem?_eq_some_iff.1 hi
    have hmem : (xy[i]'(by omega), z[i]) ∈ xy.zip z := by
      rw [List.mem_iff_getElem]
      exact ⟨i, by simp; omega, by simp⟩
    rw [hperm.mem_iff, List.mem_flatMap] at hmem
    obtain ⟨p, _, hp⟩ := hmem
    obtain ⟨k, hk, e'⟩ := List.mem_map.1 hp
    refine ⟨k, List.mem_range.1 hk, ?_⟩
    rw [← e]
    exact (congrArg Prod.snd e').symm
  have hz2 : ∀ k : Nat, k < n → ∃ i : Nat, i < z.length ∧ z[i]? = some (z0 + k * h) := by
    intro k hk
    obtain ⟨p, hp⟩ := List.exists_mem_of_ne_nil _ hm.column
    have hmem : (p, z0 + k * h) ∈ xy.zip z := by
      rw [hperm.mem_iff, List.mem_flatMap]
      exact ⟨p, hp, List.mem_map.2 ⟨k, List.mem_range.2 hk, rfl⟩⟩
    obtain ⟨i, hi, e⟩ := List.mem_iff_getElem.1 hmem
    simp only [List.length_zip] at hi
    refine ⟨i, by omega, ?_⟩
    rw [List.getElem_zip] at e
    rw [List.getElem?_eq_getElem (by omega)]
    exact congrArg some (congrArg Prod.snd e)
  have hlevx : ∀ i : Nat, ∃ k : Nat, i < z.length → z[i]? = some (z0 + k * h) ∧ k < n := by
    intro i
    by_cases hi : i < z.length
    · obtain ⟨k, hk, e⟩ := hz1 i _ (List.getElem?_eq_getElem hi)
      exact ⟨k, fun _ => ⟨by rw [List.getElem?_eq_getElem hi, e], hk⟩⟩
    · exact ⟨0, fun h => absurd h hi⟩
  choose lev hlev using hlevx
  have hinj : ∀ k k' : Nat, z0 + (k : ℝ) * h = z0 + k' * h → k = k' := by
    intro k k' e
    have := mul_right_cancel₀ hpos.ne' (add_left_cancel e)
    exact_mod_cast this
  have hlev' : ∀ i k : Nat, z[i]? = some (z0 + (k : ℝ) * h) → lev i = k := by
    intro i k e
    have hi := (List.getElem?_eq_some_iff.1 e).1
    rw [(hlev i hi).1, Option.some.injEq] at e
    exact hinj _ _ e
  have hzne : z ≠ [] := by
    obtain ⟨i, hi, -⟩ := hz2 0 hn0
    intro e
    rw [e] at hi
    simp at hi
  -- planes
  obtain ⟨chunks, hip, hok, -⟩ := C46_planes N tol z hzne (ht.argsort z)
  obtain ⟨hcl, hck⟩ := levels_of_planes hip hm.step h0 lev hlev (fun k hk => by
    obtain ⟨i, hi, e⟩ := hz2 k hk
    exact ⟨i, hi, hlev' i k e⟩)
  have hrange : ∀ c ∈ chunks, ∀ i ∈ c, i < z.length := fun c hc i hi =>
    List.mem_range.1 (hip.once.mem_iff.1 (List.mem_flatten.2 ⟨c, hc, hi⟩))
  have hnd : chunks.flatten.Nodup := hip.once.nodup_iff.2 List.nodup_range
  have hcz : ∀ (k : Nat) c, chunks[k]? = some c → ∀ i, i ∈ c ↔ z[i]? = some (z0 + k * h) := by
    intro k c hkc i
    constructor
    · intro hi
      have := hck k c hkc i hi
      rw [(hlev i (hrange c (List.mem_of_getElem? hkc) i hi)).1, this]
    · intro e
      have hi := (List.getElem?_eq_some_iff.1 e).1
      obtain ⟨d, hd, hid⟩ := List.mem_flatten.1 (hip.once.mem_iff.2 (List.mem_range.2 hi))
      obtain ⟨k', hk'⟩ := List.mem_iff_getElem?.1 hd
      have h1 := hck k' d hk' i hid
      rw [hlev' i k e] at h1
      subst h1
      rw [hkc] at hk'
      rw [Option.some.inj hk']
      exact hid
  have hcn : ∀ c ∈ chunks, c.Nodup := fun c hc => (List.nodup_flatten.1 hnd).1 c hc
  have hcpos : ∀ (k : Nat) c, chunks[k]? = some c → (positions xy c).Perm cols := by
    intro k c hkc
    have hk : k < n := by rw [← hcl]; exact (List.getElem?_eq_some_iff.1 hkc).1
    exact layer_positions hpos hm.layers hk (hcn c (List.mem_of_getElem? hkc)) (hcz k c hkc)
  have hcpos' : ∀ c ∈ chunks, (positions xy c).Perm cols := by
    intro c hc
    obtain ⟨k, hk⟩ := List.mem_iff_getElem?.1 hc
    exact hcpos k c hk
  have hposlen : ∀ c ∈ chunks, (positions xy c).length = c.length := by
    intro c hc
    rw [positions_eq_map (0, 0) xy c (fun i hi => by rw [hxyz]; exact hrange c hc i hi), List.length_map]
  have hsz : ∀ c ∈ chunks, c.length = cols.length := fun c hc => by rw [← hposlen c hc, (hcpos' c hc).length_eq]
  -- spacings
  have hstd : N.std (spacings N z chunks) ≤ tol := by
    apply deviation_le (c := h) h0
    intro v hv
    have havg : ∀ (k : Nat) c, chunks[k]? = some c → N.avg (positions z c) = z0 + k * h := by
      intro k c hkc
      have hc := List.mem_of_getElem? hkc
      rw [positions_eq_map 0 z c (hrange c hc)]
      have : (c.map fun i => z.getD i 0) = List.replicate c.length (z0 + k * h) := by
        rw [List.eq_replicate_iff]
        refine ⟨by simp, ?_⟩
        intro b hb
        obtain ⟨i, hi, rfl⟩ := List.mem_map.1 hb
        rw [List.getD_eq_getElem?_getD, (hcz k c hkc i).1 hi]
        rfl
      rw [this]
      show average _ = _
      unfold average
      rw [List.sum_replicate, List.length_replicate, nsmul_eq_mul, mul_div_cancel_left₀]
      exact Nat.cast_ne_zero.2 (by
        have := List.length_pos_iff.2 (hip.nonempty c hc)
        omega)
    unfold spacings at hv
    simp only at hv
    obtain ⟨k, hk, e⟩ := List.mem_iff_getElem.1 hv
    simp only [List.length_zipWith, List.length_drop, List.length_map] at hk
    rw [List.getElem_zipWith, List.getElem_drop, List.getElem_map, List.getElem_map,
      havg (1 + k) _ (List.getElem?_eq_getElem (by omega)), havg k _ (List.getElem?_eq_getElem (by omega))] at e
    rw [← e]
    push_cast
    rw [show z0 + (1 + (k : ℝ)) * h - (z0 + k * h) - h = 0 by ring, abs_zero]
    exact h0
  have hpl := hok ⟨by rw [hcl]; exact hm.several, fun c hc d hd => by rw [hsz c hc, hsz d hd], hstd⟩
  obtain ⟨first, rest, rfl⟩ : ∃ first rest, chunks = first :: rest := by
    cases chunks with
    | nil => simp at hcl; omega
    | cons a t => exact ⟨a, t, rfl⟩
  have hrl : rest.length + 1 = n := by simpa using hcl
  have hfp : (positions xy first).Perm cols := hcpos' first (by simp)
  have hfne : positions xy first ≠ [] := by
    intro e
    rw [e] at hfp
    exact hm.column (List.nil_perm.1 hfp)
  have hcell : g.items ≠ [] := by
    intro e
    have := hm.cells
    rw [e] at this
    exact hzne (List.length_eq_zero_iff.1 this)
  obtain ⟨-, ik, grid, out, hloc, hz, hgl, hgs, hout⟩ := C47_slice N planeDist_isDist nn tol so junk g data rms phase snapshot nmode select xy z
    first rest _ rfl ht.sort hm.grid hm.sizes hm.cells (by rw [hxyz]; exact hm.cells) hcell hdk hlen hsel hnc (ht.argsort z) hpl
    (fun p _ => by rw [planeDist_self]; exact h0) (ht.nearest _ hfne) (separated_perm h0 hm.apart hfp)
    (by
      intro c p hc
      have key : ∀ q ∈ c, |q.1 - p.1| ≤ tol ∧ |q.2 - p.2| ≤ tol := by
        intro q hq
        have h1 := hc q hq
        unfold planeDist at h1
        rw [Real.sqrt_le_left h0] at h1
        constructor
        · rw [abs_sub_comm]; exact abs_le_of_sq_le_sq (by nlinarith [sq_nonneg (p.2 - q.2)]) h0
        · rw [abs_sub_comm]; exact abs_le_of_sq_le_sq (by nlinarith [sq_nonneg (p.1 - q.1)]) h0
      refine max_le (deviation_le (c := p.1) h0 ?_) (deviation_le (c := p.2) h0 ?_)
      · intro v hv
        obtain ⟨q, hq, rfl⟩ := List.mem_map.1 hv
        exact (key q hq).1
      · intro v hv
        obtain ⟨q, hq, rfl⟩ := List.mem_map.1 hv
        exact (key q hq).2)
    (by
      intro c hc
      exact sameCenters_perm h0 (hfp.nodup_iff.2 (separated_nodup h0 hm.apart)) ((hcpos' c (.tail _ hc)).trans hfp.symm))
    (by
      intro var req v h1 h2
      rw [hrl]
      exact hmode var req v h1 h2)
  have hps : ∀ j : Nat, (positions xy first)[j]? = (first[j]?).bind fun i : Nat => xy[i]? := by
    intro j
    rw [positions_eq_map (0, 0) xy first (fun i hi => by rw [hxyz]; exact hrange first (by simp) i hi), List.getElem?_map]
    cases hj : first[j]? with
    | none => rfl
    | some i =>
      have hi : i < xy.length := by rw [hxyz]; exact hrange first (by simp) i (List.mem_of_getElem? hj)
      simp [hi]
  refine ⟨grid, out, positions xy first, hz, hfp, ?_, ?_, ?_⟩
  · rw [hgl, hposlen first (by simp)]
  · intro j p hj
    rw [hps] at hj
    obtain ⟨i, hi, hp⟩ := Option.bind_eq_some_iff.1 hj
    refine ⟨i, hp, ?_, hgs j i hi⟩
    have := (hcz 0 first rfl i).1 (List.mem_of_getElem? hi)
    simpa using this
  · intro var req a f h1 h2 h3
    -- the columns
    have hcol : ∀ (j i0 : Nat) (p : ℝ × ℝ), first[j]? = some i0 → xy[i0]? = some p → column (atCenters f xy z) ik j = samples n z0 h (f p) := by
      intro j i0 p hj hp
      have hpc : p ∈ cols := by
        rw [← hfp.mem_iff]
        exact List.mem_of_getElem? (i := j) (by rw [hps, hj]; exact hp)
      have hikl : ik.length = n := by rw [← hloc.rows.length_eq]; exact hcl
      unfold column samples
      rw [← hikl]
      apply filterMap_range _ ik (fun k => f p (z0 + k * h))
      intro k r hkr
      obtain ⟨hk, er⟩ := List.getElem?_eq_some_iff.1 hkr
      have hk' : k < (first :: rest).length := by rw [hloc.rows.length_eq]; exact hk
      have hpr : r.Perm ((first :: rest)[k]) := by
        have := (List.forall₂_iff_get.1 hloc.rows).2 k hk' hk
        rw [← er]
        exact this
      have hkc := List.getElem?_eq_getElem hk'
      have hrlen : r.length = first.length := by
        rw [hpr.length_eq, hsz _ (List.getElem_mem hk'), hsz first (by simp)]
      have hjr : j < r.length := by rw [hrlen]; exact (List.getElem?_eq_some_iff.1 hj).1
      have hrj := List.getElem?_eq_getElem hjr
      have hmem : r[j] ∈ (first :: rest)[k] := hpr.mem_iff.1 (List.getElem_mem hjr)
      have hzk := (hcz k _ hkc _).1 hmem
      have hir : r[j] < xy.length := by rw [hxyz]; exact (List.getElem?_eq_some_iff.1 hzk).1
      have hq := List.getElem?_eq_getElem hir
      have hnear := hloc.near first rfl r (List.mem_of_getElem? hkr) j i0 r[j] p _ hj hrj hp hq
      have hqc : xy[r[j]] ∈ cols := by
        rw [← (hcpos k _ hkc).mem_iff]
        unfold positions
        rw [List.mem_filterMap]
        exact ⟨r[j], hmem, hq⟩
      have hpq := separated_eq h0 hm.apart hpc hqc hnear
      rw [hrj, Option.bind_some]
      unfold atCenters
      rw [List.getElem?_zipWith, hq, hzk, hpq]
    have hw := fun w => (hout (a.label var) w).2
    obtain ⟨w, hww⟩ : ∃ w : List ℝ, w.map some = (List.range first.length).map fun j => a.value N (column (atCenters f xy z) ik j) := by
      have hall : ∀ j ∈ List.range first.length, ∃ b, a.value N (column (atCenters f xy z) ik j) = some b := by
        intro j hj
        rw [List.mem_range] at hj
        have hi := hrange first (by simp) _ (List.getElem_mem hj)
        rw [hcol j _ _ (List.getElem?_eq_getElem hj) (List.getElem?_eq_getElem (by omega))]
        cases a with
        | snapshot =>
          have hne : samples n z0 h (f (xy[first[j]]'(by omega))) ≠ [] := by
            intro e
            have := congrArg List.length e
            simp [samples] at this
            omega
          obtain ⟨b, t, e⟩ := List.exists_cons_of_ne_nil hne
          exact ⟨b, by rw [e]; rfl⟩
        | avg => exact ⟨_, rfl⟩
        | mode k => exact ⟨_, rfl⟩
        | phase k => exact ⟨_, rfl⟩
        | rms => exact ⟨_, rfl⟩
      generalize List.range first.length = l at hall
      induction l with
      | nil => exact ⟨[], rfl⟩
      | cons j t ih =>
        obtain ⟨b, hb⟩ := hall j (.head _)
        obtain ⟨w, hw⟩ := ih fun j hj => hall j (.tail _ hj)
        exact ⟨b :: w, by rw [List.map_cons, List.map_cons, hw, hb]⟩
    refine ⟨w, hw w ⟨var, req, a, _, h1, h2, rfl, h3, hww⟩, ?_⟩
    rw [hww]
    apply List.ext_getElem?
    intro j
    rw [List.getElem?_map, List.getElem?_map, hps]
    by_cases hj : j < first.length
    · have hi := hrange first (by simp) _ (List.getElem_mem hj)
      rw [List.getElem?_range hj, List.getElem?_eq_getElem hj, Option.bind_some, List.getElem?_eq_getElem (by omega : first[j] < xy.length),
        Option.map_some, Option.map_some, hcol j _ _ (List.getElem?_eq_getElem hj) (List.getElem?_eq_getElem (by omega))]
    · rw [List.getElem?_eq_none (by simp; omega), List.getElem?_eq_none (by omega : first.length ≤ j)]
      rfl

private theorem eq_map_of_some {α β : Type} {w : List β} {l : List α} {F : α → β} (h : w.map some = l.map fun p => some (F p)) :
    w = l.map F := by
  have : w.map some = (l.map F).map some := by rw [h, List.map_map]; rfl
  exact List.map_injective_iff.2 (Option.some_injective β) this

private theorem forall₂_of_some {α β : Type} {w : List β} {l : List α} {F : α → β} (h : w.map some = l.map fun p => some (F p))
    {R : α → β → Prop} (hR : ∀ p ∈ l, R p (F p)) : List.Forall₂ R l w := by
  rw [eq_map_of_some h, List.forall₂_map_right_iff, List.forall₂_same]
  exact hR

private theorem samples_length (n : Nat) (z0 h : ℝ) (f : ℝ → ℝ) : (samples n z0 h f).length = n := by simp [samples]

/-- **C93, any field.** The average of a column times the number of layers is the sum of its values; the rms is the root of the mean
square less the square of the mean; the sum of the squares of all the modes is the number of layers times the square of the rms. -/
theorem C93_energy (argsort : List ℝ → List Nat) (nn : List (ℝ × ℝ) → ℝ × ℝ → Nat) (so : List Int → List Int) (junk : Nat → Int)
    (ht : SortTools argsort nn so) (g : Grid Q) (cols xy : List (ℝ × ℝ)) (z : List ℝ) (n : Nat) (z0 h tol : ℝ)
    (hm : LayeredMesh g cols n z0 h tol xy z) (data : Dict String (List ℝ)) (rms phase snapshot : Bool) (nmode : Int)
    (select : Option (Dict String (List SelItem))) (hdk : data.keys.Nodup) (hlen : ∀ p ∈ data, p.2.length = g.items.length)
    (hsel : SelectionWF data.keys select) (hnc : NoCollision data.keys (defaultOptions rms phase snapshot nmode) select)
    (hmode : ∀ var req v, requested data.keys (defaultOptions rms phase snapshot nmode) select var = some req →
      req "nmode" = some v → numberOf v < n) :
    ∃ (grid : Grid Q) (out : Dict String (List ℝ)) (ps : List (ℝ × ℝ)),
      zconvolution (planeNumbers exactModes argsort) (fun x => |x|) planeDist nn tol so junk g data
        (defaultOptions rms phase snapshot nmode) select xy z = .ok (grid, out) ∧ ps.Perm cols ∧
      ∀ var req f, requested data.keys (defaultOptions rms phase snapshot nmode) select var = some req →
        data.get? var = some (atCenters f xy z) →
        (Asked req .avg → ∃ w, out.get? (var ++ "_avg") = some w ∧
          List.Forall₂ (fun p a => n * a = (samples n z0 h (f p)).sum) ps w) ∧
        (Asked req .rms → ∃ w, out.get? (var ++ "_rms") = some w ∧
          List.Forall₂ (fun p r => 0 ≤ r ∧ n * r ^ 2 =
            ((samples n z0 h (f p)).map fun v => v ^ 2).sum - (samples n z0 h (f p)).sum ^ 2 / n) ps w) ∧
        (Asked req .rms → (∀ k, 1 ≤ k → k < n → Asked req (.mode k)) → ∃ (r : List ℝ) (m : Nat → List ℝ),
          out.get? (var ++ "_rms") = some r ∧ (∀ k, 1 ≤ k → k < n → out.get? (var ++ "_k" ++ toString k) = some (m k)) ∧
          ∀ (j : Nat) v, r[j]? = some v → ∃ a : Nat → ℝ, (∀ k, 1 ≤ k → k < n → (m k)[j]? = some (a k)) ∧
            ((List.range' 1 (n - 1)).map fun k => a k ^ 2).sum = n * v ^ 2) := by
  obtain ⟨grid, out, ps, h1, h2, -, -, h5⟩ := C93_layers argsort nn so junk ht g cols xy z n z0 h tol hm data rms phase snapshot nmode select hdk hlen hsel hnc hmode
  have hn : 0 < n := by have := hm.several; omega
  have hn' : (n : ℝ) ≠ 0 := Nat.cast_ne_zero.2 hn.ne'
  have hsum : ∀ f : ℝ → ℝ, (samples n z0 h f).sum = ∑ j ∈ Finset.range n, f (z0 + j * h) := fun f => rfl
  have hsq : ∀ f : ℝ → ℝ, ((samples n z0 h f).map fun v => v ^ 2).sum = ∑ j ∈ Finset.range n, f (z0 + j * h) ^ 2 := by
    intro f
    unfold samples
    rw [List.map_map]
    rfl
  have hdev : ∀ f : ℝ → ℝ, 0 ≤ deviation exactModes (samples n z0 h f) ∧ n * deviation exactModes (samples n z0 h f) ^ 2 =
      ∑ j ∈ Finset.range n, (f (z0 + j * h) - (∑ j ∈ Finset.range n, f (z0 + j * h)) / n) ^ 2 := by
    intro f
    unfold samples
    rw [deviation_range]
    refine ⟨Real.sqrt_nonneg _, ?_⟩
    rw [Real.sq_sqrt (by positivity), mul_div_cancel₀ _ hn']
  refine ⟨grid, out, ps, h1, h2, ?_⟩
  intro var req f hr hd
  refine ⟨?_, ?_, ?_⟩
  · intro ha
    obtain ⟨w, hw, e⟩ := h5 var req .avg f hr ha hd
    refine ⟨w, hw, forall₂_of_some e ?_⟩
    intro p _
    show (n : ℝ) * average _ = _
    unfold average
    rw [samples_length, mul_div_cancel₀ _ hn']
  · intro ha
    obtain ⟨w, hw, e⟩ := h5 var req .rms f hr ha hd
    refine ⟨w, hw, forall₂_of_some e ?_⟩
    intro p _
    refine ⟨(hdev (f p)).1, ?_⟩
    rw [hsum, hsq, ← sum_sq_deviation hn]
    exact (hdev (f p)).2
  · intro ha hk
    obtain ⟨r, hr', e⟩ := h5 var req .rms f hr ha hd
    have hx : ∀ k, ∃ w, 1 ≤ k → k < n → out.get? (var ++ "_k" ++ toString k) = some w ∧
        w.map some = ps.map fun p => some (exactModes.abs (modeValue exactModes k (samples n z0 h (f p)))) := by
      intro k
      by_cases hc : 1 ≤ k ∧ k < n
      · obtain ⟨w, hw, e⟩ := h5 var req (.mode k) f hr (hk k hc.1 hc.2) hd
        exact ⟨w, fun _ _ => ⟨hw, e⟩⟩
      · exact ⟨[], fun a b => absurd ⟨a, b⟩ hc⟩
    choose m hm' using hx
    refine ⟨r, m, hr', fun k a b => (hm' k a b).1, ?_⟩
    intro j v hv
    rw [eq_map_of_some e, List.getElem?_map] at hv
    obtain ⟨p, hp, hv⟩ := Option.map_eq_some_iff.1 hv
    refine ⟨fun k => exactModes.abs (modeValue exactModes k (samples n z0 h (f p))), ?_, ?_⟩
    · intro k a b
      rw [eq_map_of_some (hm' k a b).2, List.getElem?_map, hp]
      rfl
    · have hval : ∀ k ∈ List.range' 1 (n - 1), exactModes.abs (modeValue exactModes k (samples n z0 h (f p))) ^ 2 =
          ‖line n (fun j => f p (z0 + j * h)) k‖ ^ 2 / n := by
        intro k hk
        rw [List.mem_range'_1] at hk
        unfold samples
        rw [modeAbs_range (by omega), div_pow, Real.sq_sqrt (Nat.cast_nonneg n)]
      rw [List.map_congr_left hval]
      have hen := lines_energy hn fun j => f p (z0 + j * h)
      rw [← (hdev (f p)).2] at hen
      have hsplit : ∑ k ∈ Finset.range n, (if k = 0 then 0 else ‖line n (fun j => f p (z0 + j * h)) k‖ ^ 2) =
          ((List.range' 1 (n - 1)).map fun k => ‖line n (fun j => f p (z0 + j * h)) k‖ ^ 2).sum := by
        show ((List.range n).map _).sum = _
        have er : List.range n = 0 :: List.range' 1 (n - 1) := by
          rw [List.range_eq_range']
          obtain ⟨m, rfl⟩ : ∃ m, n = m + 1 := ⟨n - 1, by omega⟩
          rfl
        rw [er, List.map_cons, List.sum_cons, if_pos rfl, zero_add]
        congr 1
        apply List.map_congr_left
        intro k hk
        rw [List.mem_range'_1] at hk
        rw [if_neg (by omega)]
      rw [hsplit] at hen
      have hdiv : ((List.range' 1 (n - 1)).map fun k => ‖line n (fun j => f p (z0 + j * h)) k‖ ^ 2 / n).sum =
          ((List.range' 1 (n - 1)).map fun k => ‖line n (fun j => f p (z0 + j * h)) k‖ ^ 2).sum / n := by
        simp only [div_eq_mul_inv]
        rw [List.sum_map_mul_right]
      rw [hdiv, hen, mul_div_cancel_left₀ _ hn', ← hv]
      rfl

/-- **C93, oscillations.** A variable that is in each column a mean value plus oscillations along the third direction, with a whole
number of periods over the `n` layers (of more than two layers each, frequencies apart): its average is the mean value and its rms the
root of half the sum of the squares of the amplitudes. An oscillation of `k` periods shows in mode `k` (and `n - k`) with `sqrt(n) / 2`
times its amplitude, and the phase of mode `k` is its angle at the first layer; the modes without an oscillation are 0. -/
theorem C93_waves (argsort : List ℝ → List Nat) (nn : List (ℝ × ℝ) → ℝ × ℝ → Nat) (so : List Int → List Int) (junk : Nat → Int)
    (ht : SortTools argsort nn so) (g : Grid Q) (cols xy : List (ℝ × ℝ)) (z : List ℝ) (n : Nat) (z0 h tol : ℝ)
    (hm : LayeredMesh g cols n z0 h tol xy z) (data : Dict String (List ℝ)) (rms phase snapshot : Bool) (nmode : Int)
    (select : Option (Dict String (List SelItem))) (hdk : data.keys.Nodup) (hlen : ∀ p ∈ data, p.2.length = g.items.length)
    (hsel : SelectionWF data.keys select) (hnc : NoCollision data.keys (defaultOptions rms phase snapshot nmode) select)
    (hmode : ∀ var req v, requested data.keys (defaultOptions rms phase snapshot nmode) select var = some req →
      req "nmode" = some v → numberOf v < n) :
    ∃ (grid : Grid Q) (out : Dict String (List ℝ)) (ps : List (ℝ × ℝ)),
      zconvolution (planeNumbers exactModes argsort) (fun x => |x|) planeDist nn tol so junk g data
        (defaultOptions rms phase snapshot nmode) select xy z = .ok (grid, out) ∧ ps.Perm cols ∧
      ∀ var req (mean : ℝ × ℝ → ℝ) (tones : ℝ × ℝ → List Tone),
        requested data.keys (defaultOptions rms phase snapshot nmode) select var = some req →
        data.get? var = some (atCenters (fun p => signal (mean p) (tones p)) xy z) →
        (∀ p ∈ cols, (∀ w ∈ tones p, Resolved n h w) ∧ ((tones p).map Tone.freq).Nodup) →
        (Asked req .avg → out.get? (var ++ "_avg") = some (ps.map mean)) ∧
        (Asked req .rms → out.get? (var ++ "_rms") = some (ps.map fun p => √((tones p).map fun w => w.amp ^ 2 / 2).sum)) ∧
        (∀ k, Asked req (.mode k) → ∃ w, out.get? (var ++ "_k" ++ toString k) = some w ∧
          List.Forall₂ (fun p a => ModeOf n h (tones p) k a) ps w) ∧
        (∀ k, Asked req (.phase k) → 2 * k < n → ∃ w, out.get? (var ++ "_k" ++ toString k ++ "_phase") = some w ∧
          List.Forall₂ (fun p θ => ∀ t ∈ tones p, t.freq * (n * h) = k → 0 < t.amp → AngleAt z0 t θ) ps w) := by
  obtain ⟨grid, out, ps, h1, h2, -, -, h5⟩ := C93_layers argsort nn so junk ht g cols xy z n z0 h tol hm data rms phase snapshot nmode select hdk hlen hsel hnc hmode
  have hn : 0 < n := by have := hm.several; omega
  refine ⟨grid, out, ps, h1, h2, ?_⟩
  intro var req mean tones hr hd hres
  have hps : ∀ p ∈ ps, (∀ w ∈ tones p, Resolved n h w) ∧ ((tones p).map Tone.freq).Nodup := fun p hp => hres p (h2.mem_iff.1 hp)
  refine ⟨?_, ?_, ?_, ?_⟩
  · intro ha
    obtain ⟨w, hw, e⟩ := h5 var req .avg _ hr ha hd
    rw [show var ++ "_avg" = Product.label var .avg from rfl, hw, eq_map_of_some e, Option.some.injEq]
    apply List.map_congr_left
    intro p hp
    exact average_signal hn (hps p hp).1
  · intro ha
    obtain ⟨w, hw, e⟩ := h5 var req .rms _ hr ha hd
    rw [show var ++ "_rms" = Product.label var .rms from rfl, hw, eq_map_of_some e, Option.some.injEq]
    apply List.map_congr_left
    intro p hp
    exact deviation_signal hn (hps p hp).1 (hps p hp).2
  · intro k ha
    have hk : k < n := by
      obtain ⟨_, v, hv, hk⟩ := ha
      have := hmode var req v hr hv
      omega
    obtain ⟨w, hw, e⟩ := h5 var req (.mode k) _ hr ha hd
    refine ⟨w, hw, forall₂_of_some e ?_⟩
    intro p hp
    exact mode_signal hn (hps p hp).1 (hps p hp).2 ha.1 hk
  · intro k ha hk
    obtain ⟨w, hw, e⟩ := h5 var req (.phase k) _ hr ha hd
    refine ⟨w, hw, forall₂_of_some e ?_⟩
    intro p hp t hti hf hamp
    exact phase_signal hn (hps p hp).1 (hps p hp).2 ha.1.1 hk hti hf hamp

/-! ## Three layers of two cells -/

/-- Sort by insertion. -/
noncomputable def sortR (z : List ℝ) : List Nat := (List.range z.length).insertionSort fun i j => z.getD i 0 ≤ z.getD j 0

/-- Search among all the positions. -/
noncomputable def nearestR (ref : List (ℝ × ℝ)) (p : ℝ × ℝ) : Nat :=
  ((List.range ref.length).argmin fun i => planeDist (ref.getD i (0, 0)) p).getD 0

theorem sortTools : SortTools sortR nearestR id where
  argsort z := by
    refine ⟨List.perm_insertionSort _ _, ?_⟩
    have : Std.Total fun i j : Nat => z.getD i 0 ≤ z.getD j 0 := ⟨fun i j => le_total _ _⟩
    have : IsTrans Nat fun i j : Nat => z.getD i 0 ≤ z.getD j 0 := ⟨fun _ _ _ h1 h2 => le_trans h1 h2⟩
    refine (List.pairwise_insertionSort (fun i j : Nat => z.getD i 0 ≤ z.getD j 0) _).imp ?_
    intro i j h a b ha hb
    rw [List.getD_eq_getElem?_getD, List.getD_eq_getElem?_getD, ha, hb] at h
    exact h
  nearest ref hne p := by
    unfold nearestR
    cases hm : (List.range ref.length).argmin fun i => planeDist (ref.getD i (0, 0)) p with
    | none =>
      rw [List.argmin_eq_none, List.range_eq_nil, List.length_eq_zero_iff] at hm
      exact absurd hm hne
    | some i =>
      have hi := List.mem_range.1 (List.argmin_mem hm)
      refine ⟨ref[i], by simp [hi], ?_⟩
      intro r hr
      obtain ⟨j, hj, rfl⟩ := List.mem_iff_getElem.1 hr
      have := List.le_of_mem_argmin (List.mem_range.2 hj) hm
      rwa [List.getD_eq_getElem _ _ hi, List.getD_eq_getElem _ _ hj] at this
  sort l := .refl l

/-- Columns at `(0, 0)` and `(1, 0)`, layers at 10, 12 and 14, the cells in no order. -/
noncomputable def sixXY : List (ℝ × ℝ) := [(1, 0), (0, 0), (0, 0), (1, 0), (0, 0), (1, 0)]
noncomputable def sixZ : List ℝ := [12, 14, 10, 10, 12, 14]

/-- Six cells. -/
def sixCells : Grid Nat := ⟨[(3, [0, 1]), (3, [2, 3]), (3, [3, 4]), (3, [1, 5]), (3, [2, 5]), (3, [0, 4])], [10, 11, 12, 13, 14, 15]⟩

theorem sixMesh : LayeredMesh sixCells [(0, 0), (1, 0)] 3 10 2 (1 / 10) sixXY sixZ where
  grid := by unfold GridWF; decide
  sizes := by decide
  cells := rfl
  layers := by
    refine ⟨rfl, ?_⟩
    have e : ([(0, 0), (1, 0)] : List (ℝ × ℝ)).flatMap (fun p => (List.range 3).map fun k : Nat => (p, (10 : ℝ) + k * 2)) =
        [((0, 0), 10), ((0, 0), 12), ((0, 0), 14), ((1, 0), 10), ((1, 0), 12), ((1, 0), 14)] := by
      simp [List.range_succ]
      norm_num
    rw [e]
    show List.Perm [((1, 0), 12), ((0, 0), 14), ((0, 0), 10), ((1, 0), 10), ((0, 0), 12), ((1, 0), 14)] _
    classical
    rw [List.perm_iff_count]
    intro a
    simp only [List.count_cons, List.count_nil]
    ring
  column := by simp
  several := by decide
  tolerance := by norm_num
  step := by norm_num
  apart := by
    have h1 : planeDist (0, 0) (1, 0) = 1 := by simp [planeDist]
    intro i j a b ha hb hij
    have hi : i < 2 := (List.getElem?_eq_some_iff.1 ha).1
    have hj : j < 2 := (List.getElem?_eq_some_iff.1 hb).1
    have hi' : i = 0 ∨ i = 1 := by omega
    have hj' : j = 0 ∨ j = 1 := by omega
    rcases hi' with rfl | rfl <;> rcases hj' with rfl | rfl <;> simp at ha hb hij <;> subst ha hb
    · rw [h1]; norm_num
    · rw [planeDist_symm, h1]; norm_num

/-- In the column at `(x, y)`: mean `x`, one oscillation of amplitude `2 + x` with one period over the three layers. -/
noncomputable def sixData : Dict String (List ℝ) :=
  [("U", atCenters (fun p => signal p.1 [⟨2 + p.1, 1 / 6, 1⟩]) sixXY sixZ)]

theorem sixRequest {var : String} {req : String → Option OptVal}
    (h : requested sixData.keys (defaultOptions true true false 2) none var = some req) :
    var = "U" ∧ req = (defaultOptions true true false 2).get? := by
  simp only [requested] at h
  split at h
  · rename_i hv
    refine ⟨by simpa [sixData, Dict.keys] using hv, (Option.some.inj h).symm⟩
  · cases h

theorem sixNames : NoCollision sixData.keys (defaultOptions true true false 2) none := by
  intro var var' req req' h h' a b ha hb hab
  obtain ⟨rfl, rfl⟩ := sixRequest h
  obtain ⟨rfl, rfl⟩ := sixRequest h'
  refine ⟨rfl, ?_⟩
  have hk : ∀ p : Product, Asked (defaultOptions true true false 2).get? p →
      p = .avg ∨ p = .mode 1 ∨ p = .mode 2 ∨ p = .phase 1 ∨ p = .phase 2 ∨ p = .rms := by
    intro p hp
    have hn : ∀ k : Nat, 1 ≤ k → (∃ v, (defaultOptions true true false 2).get? "nmode" = some v ∧ (k : Int) ≤ numberOf v) → k = 1 ∨ k = 2 := by
      rintro k h1 ⟨v, hv, h2⟩
      rw [show (defaultOptions true true false 2).get? "nmode" = some (.int 2) from by decide +kernel] at hv
      obtain rfl := Option.some.inj hv
      simp only [numberOf] at h2
      omega
    cases p with
    | snapshot =>
      obtain ⟨v, hv, h2⟩ := hp
      rw [show (defaultOptions true true false 2).get? "snapshot" = some (.bool false) from by decide +kernel] at hv
      obtain rfl := Option.some.inj hv
      cases h2
    | avg => exact .inl rfl
    | mode k =>
      rcases hn k hp.1 hp.2 with rfl | rfl
      · exact .inr (.inl rfl)
      · exact .inr (.inr (.inl rfl))
    | phase k =>
      rcases hn k hp.1.1 hp.1.2 with rfl | rfl
      · exact .inr (.inr (.inr (.inl rfl)))
      · exact .inr (.inr (.inr (.inr (.inl rfl))))
    | rms => exact .inr (.inr (.inr (.inr (.inr rfl))))
  rcases hk a ha with rfl | rfl | rfl | rfl | rfl | rfl <;> rcases hk b hb with rfl | rfl | rfl | rfl | rfl | rfl <;>
    first | rfl | (revert hab; decide +kernel)

theorem sixModes : ∀ var req v, requested sixData.keys (defaultOptions true true false 2) none var = some req →
    req "nmode" = some v → numberOf v < (3 : Nat) := by
  intro var req v h hv
  obtain ⟨rfl, rfl⟩ := sixRequest h
  rw [show (defaultOptions true true false 2).get? "nmode" = some (.int 2) from by decide +kernel] at hv
  obtain rfl := Option.some.inj hv
  decide

/-- The hypotheses of the three theorems hold, and those of `C93_waves` for the variable: the average in each column is the mean of
the column, mode 1 is `sqrt 3 / 2` times the amplitude. -/
example : ∃ (grid : Grid Nat) (out : Dict String (List ℝ)) (ps : List (ℝ × ℝ)),
    zconvolution (planeNumbers exactModes sortR) (fun x => |x|) planeDist nearestR (1 / 10) id (fun _ => 0) sixCells sixData
      (defaultOptions true true false 2) none sixXY sixZ = .ok (grid, out) ∧ ps.Perm [(0, 0), (1, 0)] ∧
    out.get? "U_avg" = some (ps.map Prod.fst) ∧
    out.get? "U_rms" = some (ps.map fun p => √((2 + p.1) ^ 2 / 2)) ∧
    ∃ w, out.get? "U_k1" = some w ∧ List.Forall₂ (fun p a => a = √3 * |2 + p.1| / 2) ps w := by
  obtain ⟨grid, out, ps, h1, h2, h3⟩ := C93_waves sortR nearestR id (fun _ => 0) sortTools sixCells [(0, 0), (1, 0)] sixXY sixZ 3 10 2 (1 / 10)
    sixMesh sixData true true false 2 none (by decide +kernel) (by intro p hp; simp [sixData] at hp; subst hp; rfl) trivial sixNames sixModes
  have hreq : requested sixData.keys (defaultOptions true true false 2) none "U" = some (defaultOptions true true false 2).get? := by
    simp [requested, sixData, Dict.keys]
  obtain ⟨a1, a2, a3, -⟩ := h3 "U" _ Prod.fst (fun p => [⟨2 + p.1, 1 / 6, 1⟩]) hreq rfl (by
    intro p _
    refine ⟨?_, by simp⟩
    intro w hw
    simp only [List.mem_singleton] at hw
    subst hw
    exact ⟨1, by decide, by decide, by norm_num⟩)
  refine ⟨grid, out, ps, h1, h2, a1 ⟨.bool true, by decide +kernel, rfl⟩, ?_, ?_⟩
  · have := a2 ⟨.bool true, by decide +kernel, rfl⟩
    simpa using this
  · obtain ⟨w, hw, hf⟩ := a3 1 ⟨le_refl _, .int 2, by decide +kernel, by decide⟩
    refine ⟨w, hw, hf.imp ?_⟩
    intro p a ha
    have := ha.1 _ (List.mem_singleton.2 rfl) (.inl (by norm_num))
    simpa using this

example := C93_energy sortR nearestR id (fun _ => 0) sortTools sixCells [(0, 0), (1, 0)] sixXY sixZ 3 10 2 (1 / 10)
    sixMesh sixData true true false 2 none (by decide +kernel) (by intro p hp; simp [sixData] at hp; subst hp; rfl) trivial sixNames sixModes

end Cfd.PlaneValues
