import Verif.Lemmas.Ic3V4Sol
import Verif.Lemmas.Ic3Writes
import Verif.Spec.Ic3V4Cells

/-! Lemmas on what the IC3 V4 writer accepts. -/

namespace Cfd.Ic3
open Spec Spec.Ic3 ElemConn

theorem zoneV4_iff {p : String × Mark} (hr : ∃ a b, p.2.index = .range a b) :
    (∃ z, zoneV4 p = .ok z) ↔ p.2.name = p.1 ∧ p.2.onFaces = true ∧ p.2.type ∈ zoneTypes ∧
      ∀ pt, p.2.perio = some pt → 3 ≤ pt.length := by
  obtain ⟨a, b, hr⟩ := hr
  have hz : zoneTypes = type2zonekind.keys := rfl
  rw [hz]
  unfold zoneV4
  rw [hr]
  constructor
  · rintro ⟨z, h⟩
    simp only [bind_eq_ok, pyAssert_eq_ok, decide_eq_true_eq] at h
    obtain ⟨_, h1, _, h2, _, h3, k, _, h5⟩ := h
    refine ⟨h1.symm, h2, h3, fun pt hpt => ?_⟩
    rw [hpt] at h5
    simp only at h5
    split at h5
    · cases h5
    · omega
  · rintro ⟨h1, h2, h3, h4⟩
    obtain ⟨k, hk⟩ := Dict.mem_keys_iff.1 h3
    simp only [pyAssert, h1, h2, h3, decide_true, if_true, Except_bind_ok, Dict.getE, hk]
    cases hp : p.2.perio with
    | none => exact ⟨_, rfl⟩
    | some pt =>
      have := h4 pt hp
      simp only
      rw [if_neg (by omega)]
      exact ⟨_, rfl⟩

theorem zonesV4_iff {w : WState} (hr : ∀ p ∈ w.bocos, ∃ a b, p.2.index = .range a b) :
    (∃ r, zonesV4 w = .ok r) ↔ ∀ p ∈ w.bocos, ZoneFits p.1 p.2 := by
  constructor
  · rintro ⟨r, h⟩
    unfold zonesV4 at h
    obtain ⟨zs, hzs, h⟩ := bind_eq_ok.1 h
    obtain ⟨e1, e2⟩ := zoneV4_all hzs
    have hall : ∀ p ∈ w.bocos, ∃ z, zoneV4 p = .ok z := by
      have : ∀ (d : Dict String Mark) zs, d.mapM zoneV4 = .ok zs → ∀ p ∈ d, ∃ z, zoneV4 p = .ok z := by
        intro d
        induction d with
        | nil => intro _ _ p hp; cases hp
        | cons q t ih =>
          intro zs h p hp
          simp only [List.mapM_cons, bind_eq_ok, Except_pure, Except.ok.injEq] at h
          obtain ⟨z, hz, zs', hzs, -⟩ := h
          rcases List.mem_cons.1 hp with rfl | hp
          · exact ⟨z, hz⟩
          · exact ih _ hzs p hp
      exact this _ _ hzs
    intro p hp
    obtain ⟨h1, h2, h3, h4⟩ := (zoneV4_iff (hr p hp)).1 (hall p hp)
    refine ⟨h1, h2, h3, fun pt hpt => ⟨h4 pt hpt, fun hm => ?_⟩⟩
    rw [if_pos] at h
    · cases h
    · rw [List.any_eq_true]
      refine ⟨(p.1, pt.take 3), ?_, ?_⟩
      · rw [List.mem_filterMap]
        refine ⟨(zoneTriple p, p.2.perio.map (List.take 3)), ?_, ?_⟩
        · rw [e1]; exact List.mem_map_of_mem hp
        · rw [hpt]; rfl
      · exact List.contains_iff_mem.2 hm
  · intro h
    have hall : ∃ zs, w.bocos.mapM zoneV4 = .ok zs := by
      have : ∀ (d : Dict String Mark), (∀ p ∈ d, ∃ z, zoneV4 p = .ok z) → ∃ zs, d.mapM zoneV4 = .ok zs := by
        intro d
        induction d with
        | nil => intro _; exact ⟨_, rfl⟩
        | cons q t ih =>
          intro h
          obtain ⟨z, hz⟩ := h q (by simp)
          obtain ⟨zs, hzs⟩ := ih fun p hp => h p (by simp [hp])
          simp only [List.mapM_cons, hz, hzs, Except_bind_ok]
          exact ⟨_, rfl⟩
      exact this _ fun p hp => (zoneV4_iff (hr p hp)).2 ⟨(h p hp).name, (h p hp).faces, (h p hp).known,
        fun pt hpt => ((h p hp).perio pt hpt).1⟩
    obtain ⟨zs, hzs⟩ := hall
    obtain ⟨e1, -⟩ := zoneV4_all hzs
    unfold zonesV4
    rw [hzs]
    simp only [Except_bind_ok]
    rw [if_neg]
    · exact ⟨_, rfl⟩
    · rw [List.any_eq_true]
      rintro ⟨q, hq, hc⟩
      rw [List.mem_filterMap] at hq
      obtain ⟨z, hz, hzq⟩ := hq
      rw [e1] at hz
      obtain ⟨p, hp, rfl⟩ := List.mem_map.1 hz
      simp only [Option.map_map, Option.map_eq_some_iff] at hzq
      obtain ⟨pt, hpt, rfl⟩ := hzq
      exact ((h p hp).perio pt hpt).2 (List.contains_iff_mem.1 hc)

/-- The mesh file can be written when its zones fit. -/
theorem meshFile_iff {h5 : H5} {f : FullMesh} {m : Mesh F64} {w : WState} {l : List Face}
    (hk : Keeps32 h5) (hset : setMesh f m = .ok w) (hs : Storable m l) (hf : FitsV4 m l) :
    (∃ x, meshFile h5 m w = .ok x) ↔ ∀ p ∈ m.bocos, p.2.type ≠ "internal" → ZoneFits p.1 p.2 := by
  obtain ⟨k1, k2, k3, k4, k5, k6⟩ := setMesh_faces hset hs.faces
  have hm := meshOK_of_count hset hs hf.count
  obtain ⟨co, zf, _, _, _, hw2⟩ := setMesh_ok hset
  have hb : w.bocos = m.bocos.filter fun p => decide (p.2.type ≠ "internal") := by rw [hw2]
  have hrng : ∀ p ∈ w.bocos, ∃ a b, p.2.index = .range a b := by
    intro p hp
    rw [hb, List.mem_filter] at hp
    obtain ⟨a, b, h, -⟩ := hs.markRanges p hp.1 (by simpa using hp.2)
    exact ⟨a, b, h⟩
  have hiff : (∀ p ∈ m.bocos, p.2.type ≠ "internal" → ZoneFits p.1 p.2) ↔ ∀ p ∈ w.bocos, ZoneFits p.1 p.2 := by
    rw [hb]
    simp only [List.mem_filter, decide_eq_true_eq, and_imp]
  rw [hiff, ← zonesV4_iff hrng]
  constructor
  · rintro ⟨x, h⟩
    unfold meshFile at h
    simp only [bind_eq_ok] at h
    obtain ⟨_, -, _, -, _, -, _, -, r, hr, -⟩ := h
    exact ⟨r, hr⟩
  · rintro ⟨r, hr⟩
    have hnfa : (w.nfa : Int) = l.length := by rw [k5, hf.count]
    have f1 : ∀ n ∈ (l.map (·.2)).flatMap (fun r => [r.1, r.2]), h5.i4 n = .ok n := by
      intro n hn
      simp only [List.mem_flatMap, List.mem_map, List.mem_cons, List.not_mem_nil, or_false] at hn
      obtain ⟨r, ⟨x, hx, rfl⟩, h⟩ := hn
      have := hf.numbers x hx
      rcases h with rfl | rfl
      · exact hk _ this.1
      · exact hk _ this.2.1
    have f2 : ∀ n ∈ w.noofa, h5.i4 n = .ok n := by
      intro n hn
      have := hm.nodesPerFace n hn
      exact hk n (by unfold FitsInt; omega)
    have f3 : ∀ n ∈ w.noofaV, h5.i4 n = .ok n := by
      intro n hn
      rw [k2, List.mem_flatten] at hn
      obtain ⟨q, hq, hn⟩ := hn
      obtain ⟨x, hx, rfl⟩ := List.mem_map.1 hq
      exact hk n ((hf.numbers x hx).2.2 n hn)
    obtain ⟨e1, e2⟩ := zonesV4_ok hr
    have hlast := lastBoco_bounds (l := w.bocos) (n := w.nfa) (by have := hm.faces; omega) (by
      intro p hp
      obtain ⟨_, _, a, b, hi⟩ := e2 p hp
      exact ⟨by rw [markRange, hi], (hm.markRanges p hp).2.2⟩)
    have f4 : ∀ n ∈ (sortedZones w).map (·.1) ++ [(w.nfa : Int)], h5.i4 n = .ok n := by
      intro n hn
      have hfa : FitsInt 4 (w.nfa : Int) := by rw [hnfa]; exact hf.faces
      apply hk
      rcases List.mem_append.1 hn with hn | hn
      · obtain ⟨z, hz, rfl⟩ := List.mem_map.1 hn
        rw [sortedZones, (sortZones_perm _).mem_iff] at hz
        rcases List.mem_append.1 hz with hz | hz
        · obtain ⟨p, hp, rfl⟩ := List.mem_map.1 hz
          have := hm.markRanges p hp
          exact fits_between hfa this.1 this.2.1
        · simp only [List.mem_singleton] at hz
          subst hz
          exact fits_between hfa (by simp only; omega) (by simp only; omega)
      · simp only [List.mem_singleton] at hn
        rw [hn]; exact hfa
    subst e1
    unfold meshFile
    rw [k3, hr]
    simp only [ravelF2e, Except_bind_ok]
    rw [mapM_keep f1, mapM_keep f2, mapM_keep f3]
    simp only [Except_bind_ok]
    rw [mapM_keep f4]
    exact ⟨_, rfl⟩

/-! ## The solution -/

theorem isWgt_iff {n : String} : "_wgt".toList <:+ n.toList ↔ WgtName n := by
  unfold WgtName
  exact ⟨fun ⟨a, h⟩ => ⟨a, h.symm⟩, fun ⟨a, h⟩ => ⟨a, h.symm⟩⟩

theorem attrValue_iff {v : SimVal} : (∃ s, attrValue v = .ok s) ↔ ∀ d, v ≠ .wgts d := by
  cases v <;> simp [attrValue]

theorem createAll_iff {l : List (String × List F64)} :
    (∃ d, createAll l = .ok d) ↔ l.Pairwise fun p q => p.1 ≠ q.1 := by
  have key : ∀ (l : List (String × List F64)) d, createAll l = .ok d → d = l := by
    intro l
    induction l with
    | nil => intro d h; simp only [createAll, Except.ok.injEq] at h; exact h.symm
    | cons p t ih =>
      intro d h
      rw [createAll] at h
      obtain ⟨d', h1, h⟩ := bind_eq_ok.1 h
      split at h
      · cases h
      · simp only [Except_pure, Except.ok.injEq] at h
        rw [← h, ih d' h1]
  induction l with
  | nil => exact ⟨fun _ => .nil, fun _ => ⟨_, rfl⟩⟩
  | cons p t ih =>
    rw [List.pairwise_cons]
    constructor
    · rintro ⟨d, h⟩
      rw [createAll] at h
      obtain ⟨d', h1, h⟩ := bind_eq_ok.1 h
      split at h
      · cases h
      · rename_i hc
        refine ⟨fun q hq he => hc ?_, ih.1 ⟨d', h1⟩⟩
        rw [key _ _ h1, List.contains_iff_mem, he]
        exact List.mem_map_of_mem hq
    · rintro ⟨h1, h2⟩
      obtain ⟨d, h2⟩ := ih.2 h2
      have := key _ _ h2
      subst this
      rw [createAll, h2, Except_bind_ok, if_neg]
      · exact ⟨_, rfl⟩
      · intro hc
        obtain ⟨q, hq, he⟩ := List.mem_map.1 (List.contains_iff_mem.1 hc)
        exact h1 q hq he.symm

theorem mapM_attr {l : List (String × SimVal)} :
    (∃ r, (l.mapM fun p => do
      let v ← attrValue p.2
      return (p.1, v) : Py (List (String × SimVal))) = .ok r) ↔ ∀ p ∈ l, ∀ d, p.2 ≠ .wgts d := by
  induction l with
  | nil => exact ⟨fun _ p hp => by (cases hp), fun _ => ⟨_, rfl⟩⟩
  | cons p t ih =>
    rw [List.forall_mem_cons, ← ih, ← attrValue_iff]
    constructor
    · rintro ⟨r, h⟩
      simp only [List.mapM_cons, bind_eq_ok] at h
      obtain ⟨_, ⟨v, h1, -⟩, r', h2, -⟩ := h
      exact ⟨⟨v, h1⟩, r', h2⟩
    · rintro ⟨⟨v, h1⟩, r, h2⟩
      simp only [List.mapM_cons, h1, Except_bind_ok]
      rw [Except_pure, Except_bind_ok, h2]
      exact ⟨_, rfl⟩

theorem solVars_some (cv : Conv) (d : Dict String NpArr) : ∃ r, solVars cv d = .ok r := by
  unfold solVars
  split
  · rename_i h
    rw [List.all_eq_true] at h
    obtain ⟨a, ha⟩ := Dict.mem_keys_iff.1 (List.contains_iff_mem.1 (h "RHO" (by decide)))
    obtain ⟨b, hb⟩ := Dict.mem_keys_iff.1 (List.contains_iff_mem.1 (h "RHOU" (by decide)))
    obtain ⟨c, hc⟩ := Dict.mem_keys_iff.1 (List.contains_iff_mem.1 (h "RHOE" (by decide)))
    simp only [solNames, List.mapM_cons, List.mapM_nil, solEntry, Dict.getE, ha, hb, hc, Except_bind_ok, Except_pure]
    exact ⟨_, rfl⟩
  · exact ⟨_, rfl⟩

theorem getD_attr {d : Dict String SimVal} {k : String} {n : Int} :
    (∃ s, attrValue ((d.get? k).getD (.int n)) = .ok s) ↔ ∀ s, d.get? k = some s → ∀ w, s ≠ .wgts w := by
  rw [attrValue_iff]
  cases hd : d.get? k with
  | none => simp
  | some s => simp

/-- When the solution file can be written. -/
theorem solFile_iff {cv : Conv} {f : FullMesh} : (∃ s, solFile cv f = .ok s) ↔ SolFits f := by
  have hstat : (∃ r, solStats cv f.params f.cells.data = .ok r) ↔
      ((∃ n ∈ f.cells.data.keys, StatName n) → ∀ p ∈ f.params, WgtName p.1 → ∀ d, p.2 ≠ .wgts d) ∧
      f.cells.data.Pairwise fun p q => StatName p.1 → StatName q.1 → p.1.toLower ≠ q.1.toLower := by
    have hpw : (f.cells.data.Pairwise fun p q => StatName p.1 → StatName q.1 → p.1.toLower ≠ q.1.toLower) ↔
        (((f.cells.data.filter fun p => isStat p.1).map fun p => (p.1.toLower, p.2.doubles cv)) :
          List (String × List F64)).Pairwise fun p q => p.1 ≠ q.1 := by
      rw [List.pairwise_map, List.pairwise_filter]
      simp only [isStat_iff]
    rw [hpw, ← createAll_iff]
    by_cases he : (f.cells.data.filter fun p => isStat p.1) = []
    · have hno : ¬ ∃ n ∈ f.cells.data.keys, StatName n := by
        rintro ⟨n, hn, h⟩
        obtain ⟨p, hp, rfl⟩ := List.mem_map.1 hn
        have : p ∈ f.cells.data.filter fun p => isStat p.1 := List.mem_filter.2 ⟨hp, (isStat_iff _).2 h⟩
        rw [he] at this
        cases this
      have h1 : solStats cv f.params f.cells.data = .ok none := by
        unfold solStats
        simp only [he, List.isEmpty_nil, if_true]
      rw [h1, he]
      exact ⟨fun _ => ⟨fun h => absurd h hno, _, rfl⟩, fun _ => ⟨_, rfl⟩⟩
    · have hyes : ∃ n ∈ f.cells.data.keys, StatName n := by
        obtain ⟨p, hp⟩ := List.exists_mem_of_ne_nil _ he
        obtain ⟨h1, h2⟩ := List.mem_filter.1 hp
        exact ⟨p.1, List.mem_map_of_mem h1, (isStat_iff _).1 h2⟩
      have hw : (∀ p ∈ f.params, WgtName p.1 → ∀ d, p.2 ≠ .wgts d) ↔
          ∀ p ∈ f.params.filter fun p => decide ("_wgt".toList <:+ p.1.toList), ∀ d, p.2 ≠ .wgts d := by
        simp only [List.mem_filter, decide_eq_true_eq, and_imp, isWgt_iff]
      rw [show (((∃ n ∈ f.cells.data.keys, StatName n) → ∀ p ∈ f.params, WgtName p.1 → ∀ d, p.2 ≠ .wgts d) ↔
        ∀ p ∈ f.params, WgtName p.1 → ∀ d, p.2 ≠ .wgts d) from ⟨fun h => h hyes, fun h _ => h⟩, hw, ← mapM_attr]
      unfold solStats
      simp only
      rw [if_neg (by simpa using he)]
      constructor
      · rintro ⟨r, h⟩
        obtain ⟨w, h1, h⟩ := bind_eq_ok.1 h
        obtain ⟨d, h2, -⟩ := bind_eq_ok.1 h
        exact ⟨⟨w, h1⟩, d, h2⟩
      · rintro ⟨⟨w, h1⟩, d, h2⟩
        rw [h1, Except_bind_ok, h2]
        exact ⟨_, rfl⟩
  constructor
  · rintro ⟨s, h⟩
    unfold solFile at h
    simp only [bind_eq_ok] at h
    obtain ⟨a, h1, b, h2, _, -, st, h4, -⟩ := h
    obtain ⟨k1, k2⟩ := hstat.1 ⟨st, h4⟩
    exact ⟨getD_attr.1 ⟨a, h1⟩, getD_attr.1 ⟨b, h2⟩, k1, k2⟩
  · rintro ⟨h1, h2, h3, h4⟩
    obtain ⟨a, ha⟩ := getD_attr (n := 0).2 h1
    obtain ⟨b, hb⟩ := getD_attr (n := 0).2 h2
    obtain ⟨c, hc⟩ := solVars_some cv f.cells.data
    obtain ⟨d, hd⟩ := hstat.2 ⟨h3, h4⟩
    unfold solFile
    simp only [ha, hb, hc, hd, Except_bind_ok]
    exact ⟨_, rfl⟩

end Cfd.Ic3
