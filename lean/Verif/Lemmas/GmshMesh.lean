import Verif.Lemmas.Gmsh
import Verif.Lemmas.Faces
import Verif.Lemmas.ConnAdd

/-! Lemmas on the Gmsh reader: from the elements to the mesh. -/

namespace Cfd.Gmsh
open Cfd.Spec Cfd.Spec.Gmsh Cfd.ElemConn

/-! ### Lines of elements -/

theorem line_type (e : Elt) : npGet e.line 1 = .ok e.type := npGet_at (k := 1) rfl rfl
theorem line_ntag (e : Elt) : npGet e.line 2 = .ok (e.tags.length : Int) := npGet_at (k := 2) rfl rfl

theorem line_word {e : Elt} {k : Nat} {x : Int} (h : (e.tags ++ e.nodes)[k]? = some x) :
    npGet e.line (3 + (k : Int)) = .ok x := by
  refine npGet_at (k := k + 3) (by omega) ?_
  unfold Elt.line
  simp only [List.getElem?_cons_succ]
  exact h

theorem line_nodes (e : Elt) : sliceFrom e.line (3 + (e.tags.length : Int)) = e.nodes := by
  unfold sliceFrom
  rw [if_neg (by omega), show (3 + (e.tags.length : Int)).toNat = 3 + e.tags.length by omega]
  unfold Elt.line
  rw [show 3 + e.tags.length = e.tags.length + 1 + 1 + 1 by omega]
  simp only [List.drop_succ_cons]
  exact List.drop_left' rfl

/-- The tables of the code agree with the documentation. -/
theorem tables_ok : ∀ p ∈ documented, gmshType.get? p.1 = some p.2.1 ∧ dimElem.get? p.2.1 = some p.2.2.1 := by decide

theorem documented_inj : ∀ p ∈ documented, ∀ q ∈ documented, p.2.1 = q.2.1 → p.2.2 = q.2.2 := by decide

theorem documented_keys : documented.keys.Nodup := by decide

theorem supported_entry {e : Elt} (h : e.Supported) : (e.type, e.name, e.dim, e.nodes.length) ∈ documented := by
  obtain ⟨t, d, h⟩ := h
  have := Dict.mem_of_get? h
  have e1 : e.name = t := by unfold Elt.name; rw [h]; rfl
  have e2 : e.dim = d := by unfold Elt.dim; rw [h]; rfl
  rw [e1, e2]; exact this

theorem supported_known {e : Elt} (h : e.Supported) : e.Known := by
  obtain ⟨t, d, h⟩ := h
  unfold Elt.Known
  rw [h]; rfl

theorem known_entry {e : Elt} (h : e.Known) : ∃ n, (e.type, e.name, e.dim, n) ∈ documented := by
  obtain ⟨⟨t, d, n⟩, h⟩ := Option.isSome_iff_exists.1 h
  have e1 : e.name = t := by unfold Elt.name; rw [h]; rfl
  have e2 : e.dim = d := by unfold Elt.dim; rw [h]; rfl
  rw [e1, e2]; exact ⟨n, Dict.mem_of_get? h⟩

theorem supported_code {e : Elt} (h : e.Known) : gmshType.get? e.type = some e.name ∧ dimElem.get? e.name = some e.dim := by
  obtain ⟨n, h⟩ := known_entry h
  exact tables_ok _ h

/-- Elements of the same type have the same number of nodes. -/
def SameWidth (l : List Elt) : Prop := ∀ e ∈ l, ∀ e' ∈ l, e.name = e'.name → e.nodes.length = e'.nodes.length

theorem same_name {e e' : Elt} (h : e.Supported) (h' : e'.Supported) (hn : e.name = e'.name) :
    e.dim = e'.dim ∧ e.nodes.length = e'.nodes.length := by
  have := documented_inj _ (supported_entry h) _ (supported_entry h') hn
  simp only [Prod.mk.injEq] at this
  exact this

theorem eltDim_ok {e : Elt} (h : e.Known) : eltDim e.line = .ok e.dim := by
  obtain ⟨h1, h2⟩ := supported_code h
  unfold eltDim
  rw [line_type, Except_bind_ok, Dict.getE_eq_ok.2 h1, Except_bind_ok, Dict.getE_eq_ok.2 h2]

theorem typeOfDim_ok {e : Elt} (h : e.Known) (d : Nat) :
    typeOfDim d e.line = .ok (if e.dim = d then some e.name else none) := by
  obtain ⟨h1, h2⟩ := supported_code h
  unfold typeOfDim
  rw [line_type, Except_bind_ok]
  simp only [h1, h2, Option.some.injEq, Except_pure]

/-! ### Highest dimension -/

theorem max?_foldr (l : List Nat) (h : l ≠ []) : l.max? = some (l.foldr max 0) := by
  rw [List.max?_eq_some_iff]
  constructor
  · induction l with
    | nil => exact absurd rfl h
    | cons a t ih =>
      rw [List.foldr_cons]
      by_cases ht : t = []
      · subst ht; simp
      · have := ih ht
        rcases Nat.le_total a (t.foldr max 0) with hle | hle
        · rw [Nat.max_eq_right hle]; exact List.mem_cons_of_mem _ this
        · rw [Nat.max_eq_left hle]; exact List.mem_cons_self
  · clear h
    induction l with
    | nil => simp
    | cons a t ih =>
      intro b hb
      rw [List.foldr_cons]
      rcases List.mem_cons.1 hb with rfl | hb
      · exact Nat.le_max_left _ _
      · exact Nat.le_trans (ih b hb) (Nat.le_max_right _ _)

theorem maxDim_ok {elts : List Elt} (h : ∀ e ∈ elts, e.Known) (hne : elts ≠ []) :
    maxDim (elts.map Elt.line) = .ok (topDim elts) := by
  unfold maxDim
  have : (elts.map Elt.line).mapM eltDim = .ok (elts.map Elt.dim) := by
    rw [mapM_ok_iff, List.forall₂_map_left_iff, List.forall₂_map_right_iff, List.forall₂_same]
    exact fun e he => eltDim_ok (h e he)
  rw [this, Except_bind_ok, max?_foldr _ (by simpa using hne)]
  simp only [Except_pure, List.foldr_map]
  rfl

/-! ### Volume connectivity -/

/-- Rows by type, in order of first use. -/
def byType (l : List Elt) : Dict String (List (List Int)) := extendAll (l.map fun e => (e.name, [e.nodes]))

theorem byType_eq (l : List Elt) : byType l = (firstUse (l.map Elt.name)).map fun t =>
    (t, (l.filter fun e => e.name = t).map Elt.nodes) := by
  unfold byType
  rw [extendAll_eq, List.map_map]
  apply List.map_congr_left
  intro t _
  rw [List.filter_map, List.flatMap_map]
  simp only [Function.comp_def]
  rw [← List.flatMap_singleton' (l := (l.filter fun e => decide (e.name = t)).map Elt.nodes), List.flatMap_map]

theorem addCell_fold {elts : List Elt} (h : ∀ e ∈ elts, e.Known) (d : Nat) (c : Dict String (List (List Int))) :
    (elts.map Elt.line).foldlM (addCell d) c =
      .ok ((elts.filter fun e => e.dim = d).foldl (fun c e => dictExtend c e.name [e.nodes]) c) := by
  induction elts generalizing c with
  | nil => rfl
  | cons e t ih =>
    rw [List.map_cons, List.foldlM_cons]
    have hstep : addCell d c e.line = .ok (if e.dim = d then dictExtend c e.name [e.nodes] else c) := by
      unfold addCell
      rw [typeOfDim_ok (h e List.mem_cons_self), Except_bind_ok]
      by_cases hd : e.dim = d
      · simp only [hd, if_true, eltNodes, line_ntag, Except_bind_ok, Except_pure, line_nodes]
      · simp only [hd, if_false, Except_pure]
    rw [hstep, Except_bind_ok, ih (fun x hx => h x (List.mem_cons_of_mem _ hx))]
    by_cases hd : e.dim = d
    · rw [if_pos hd, List.filter_cons_of_pos (by simpa using hd), List.foldl_cons]
    · rw [if_neg hd, List.filter_cons_of_neg (by simpa using hd)]

theorem conn_ok {elts : List Elt} (h : ∀ e ∈ elts, e.Known) (d : Nat) :
    (elts.map Elt.line).foldlM (addCell d) [] = .ok (byType (elts.filter fun e => e.dim = d)) := by
  rw [addCell_fold h]
  congr 1
  unfold byType extendAll
  rw [List.foldl_map]

/-- `np.array(rows) - 1` of the rows of one type. -/
def loweredRows (rows : List (List Int)) : Arr2 := ⟨rows.head?.map (·.length), rows.map (·.map (· - 1))⟩

theorem lowered_ok {rows : List (List Int)} (h : ∀ r ∈ rows, ∀ s ∈ rows, r.length = s.length) :
    lowered rows = .ok (loweredRows rows) := by
  unfold lowered loweredRows
  cases rows with
  | nil => rfl
  | cons r t =>
    simp only
    rw [if_pos]
    · rfl
    · rw [List.all_eq_true]
      intro x hx
      simp only [decide_eq_true_eq]
      exact h x (List.mem_cons_of_mem _ hx) r List.mem_cons_self

theorem sameWidth_of {l : List Elt} (h : ∀ e ∈ l, e.Supported) : SameWidth l :=
  fun e he e' he' hn => (same_name (h e he) (h e' he') hn).2

theorem loweredAll_ok {l : List Elt} (h : SameWidth l) :
    loweredAll (byType l) = .ok ((byType l).map fun p => (p.1, loweredRows p.2)) := by
  unfold loweredAll
  apply mapM_ok_of_forall
  intro p hp
  rw [byType_eq, List.mem_map] at hp
  obtain ⟨t, -, rfl⟩ := hp
  simp only
  rw [lowered_ok]
  · rfl
  · intro r hr s hs
    simp only [List.mem_map, List.mem_filter, decide_eq_true_eq] at hr hs
    obtain ⟨e, ⟨he, hn⟩, rfl⟩ := hr
    obtain ⟨e', ⟨he', hn'⟩, rfl⟩ := hs
    exact h e he e' he' (hn.trans hn'.symm)

/-! ### Boundary connectivity -/

/-- Entity and physical group of an element. -/
def entOf (e : Elt) : Int := ((e.tags ++ e.nodes)[1]?).getD 0
def physOf (e : Elt) : Int := ((e.tags ++ e.nodes)[0]?).getD 0

theorem phys_tag {e : Elt} (h : 2 ≤ e.tags.length) : e.tags[0]? = some (physOf e) := by
  unfold physOf
  rw [List.getElem?_append_left (by omega), List.getElem?_eq_getElem (by omega)]
  rfl

theorem ent_tag {e : Elt} (h : 2 ≤ e.tags.length) : e.tags[1]? = some (entOf e) := by
  unfold entOf
  rw [List.getElem?_append_left (by omega), List.getElem?_eq_getElem (by omega)]
  rfl

/-- Boundary connectivity: entities in order of first use, rows by type. -/
def byEntity (l : List Elt) : Dict Int (Dict String (List (List Int))) :=
  (firstUse (l.map entOf)).map fun g => (g, byType (l.filter fun e => entOf e = g))

theorem byEntity_snoc (l : List Elt) (e : Elt) :
    byEntity (l ++ [e]) = (byEntity l).set (entOf e)
      (dictExtend (((byEntity l).get? (entOf e)).getD []) e.name [e.nodes]) := by
  have hby : ∀ (m : List Elt), byType (m ++ [e]) = dictExtend (byType m) e.name [e.nodes] := by
    intro m
    unfold byType extendAll
    rw [List.map_append, List.foldl_append]
    rfl
  unfold byEntity
  rw [Dict.get?_map_mk, List.map_append, List.map_cons, List.map_nil, firstUse_append_singleton]
  by_cases h : entOf e ∈ l.map entOf
  · have h' := mem_firstUse.2 h
    rw [if_pos h, if_pos h', Dict.set_map_mk _ (nodup_firstUse _) _ _ _ h']
    apply List.map_congr_left
    intro g _
    by_cases hg : g = entOf e
    · subst hg
      rw [if_pos rfl, List.filter_append, List.filter_cons_of_pos (by simp), List.filter_nil, hby]
      rfl
    · rw [if_neg hg, List.filter_append, List.filter_cons_of_neg (by simpa using fun h => hg h.symm), List.filter_nil,
        List.append_nil]
  · have h' : entOf e ∉ firstUse (l.map entOf) := fun hc => h (mem_firstUse.1 hc)
    rw [if_neg h, if_neg h', Dict.set_of_not_mem _ (by
      simp only [Dict.keys, List.map_map, Function.comp_def, List.map_id']; exact h'), List.map_append]
    congr 1
    · apply List.map_congr_left
      intro g hg
      have : entOf e ≠ g := by rintro rfl; exact h' hg
      simp [this]
    · have hnil : l.filter (fun x => decide (entOf x = entOf e)) = [] := by
        rw [List.filter_eq_nil_iff]
        intro x hx hxe
        simp only [decide_eq_true_eq] at hxe
        exact h (hxe ▸ List.mem_map_of_mem hx)
      simp only [List.map_cons, List.map_nil, List.filter_append, hnil, List.nil_append]
      rw [List.filter_cons_of_pos (by simp), List.filter_nil]
      rfl

theorem addBnd_fold {elts : List Elt} (h : ∀ e ∈ elts, e.Known) (d : Nat)
    (ht : ∀ e ∈ elts, e.dim = d → 2 ≤ (e.tags ++ e.nodes).length) (l : List Elt) (f : Dict Int Int) :
    (elts.map Elt.line).foldlM (addBnd d) (byEntity l, f) =
      .ok (byEntity (l ++ elts.filter fun e => e.dim = d),
        (elts.filter fun e => e.dim = d).foldl (fun (f : Dict Int Int) e => f.set (entOf e) (physOf e)) f) := by
  induction elts generalizing l f with
  | nil => simp
  | cons e t ih =>
    rw [List.map_cons, List.foldlM_cons]
    have hstep : addBnd d (byEntity l, f) e.line =
        .ok (if e.dim = d then (byEntity (l ++ [e]), f.set (entOf e) (physOf e)) else (byEntity l, f)) := by
      unfold addBnd
      rw [typeOfDim_ok (h e List.mem_cons_self), Except_bind_ok]
      by_cases hd : e.dim = d
      · have hlen := ht e List.mem_cons_self hd
        have h0 : (e.tags ++ e.nodes)[0]? = some (physOf e) := by
          unfold physOf; rw [List.getElem?_eq_getElem (by omega)]; rfl
        have h1 : (e.tags ++ e.nodes)[1]? = some (entOf e) := by
          unfold entOf; rw [List.getElem?_eq_getElem (by omega)]; rfl
        have g0 : npGet e.line 3 = .ok (physOf e) := line_word h0
        have g1 : npGet e.line 4 = .ok (entOf e) := line_word h1
        simp only [hd, if_true, line_ntag, g0, g1, Except_bind_ok, Except_pure, line_nodes]
        rw [byEntity_snoc]
      · simp only [hd, if_false, Except_pure]
    rw [hstep, Except_bind_ok]
    have ih' := fun l f => ih (fun x hx => h x (List.mem_cons_of_mem _ hx)) (fun x hx => ht x (List.mem_cons_of_mem _ hx)) l f
    by_cases hd : e.dim = d
    · rw [if_pos hd, ih', List.filter_cons_of_pos (by simpa using hd), List.foldl_cons]
      simp
    · rw [if_neg hd, ih', List.filter_cons_of_neg (by simpa using hd)]

/-- Physical group of an entity. -/
theorem bnd2fam_get {l : List Elt} (hc : ∀ e ∈ l, ∀ e' ∈ l, entOf e = entOf e' → physOf e = physOf e') {e : Elt}
    (he : e ∈ l) : (l.foldl (fun (f : Dict Int Int) e => f.set (entOf e) (physOf e)) []).get? (entOf e) =
      some (physOf e) := by
  induction l using List.reverseRecOn with
  | nil => simp at he
  | append_singleton t a ih =>
    rw [List.foldl_append, List.foldl_cons, List.foldl_nil, Dict.get?_set]
    by_cases h : entOf e = entOf a
    · rw [if_pos h, hc e he a (by simp) h]
    · rw [if_neg h]
      rcases List.mem_append.1 he with he | he
      · exact ih (fun x hx y hy => hc x (List.mem_append_left _ hx) y (List.mem_append_left _ hy)) he
      · rw [List.mem_singleton] at he; subst he; exact absurd rfl h

/-! ### Families -/

/-- Nodes of the patch of an entity. -/
theorem mem_patchNodes {l : List Elt} {n : Int} :
    n ∈ patchNodes ((byType l).map fun p => (p.1, loweredRows p.2)) ↔ ∃ e ∈ l, n + 1 ∈ e.nodes := by
  unfold patchNodes
  simp only [List.mem_flatMap, List.mem_map, mem_npUnique, List.mem_flatten, loweredRows]
  constructor
  · rintro ⟨p, ⟨q, hq, rfl⟩, r, hr, hn⟩
    rw [byType_eq, List.mem_map] at hq
    obtain ⟨t, -, rfl⟩ := hq
    simp only [List.mem_map, List.mem_filter, decide_eq_true_eq] at hr
    obtain ⟨r', ⟨e, ⟨he, -⟩, rfl⟩, rfl⟩ := hr
    obtain ⟨m, hm, rfl⟩ := List.mem_map.1 hn
    exact ⟨e, he, by simpa using hm⟩
  · rintro ⟨e, he, hn⟩
    refine ⟨_, ⟨(e.name, (l.filter fun x => x.name = e.name).map Elt.nodes), ?_, rfl⟩, e.nodes.map (· - 1), ?_, ?_⟩
    · rw [byType_eq, List.mem_map]
      exact ⟨e.name, mem_firstUse.2 (List.mem_map_of_mem he), rfl⟩
    · simp only [List.mem_map, List.mem_filter, decide_eq_true_eq]
      exact ⟨e.nodes, ⟨e, ⟨he, rfl⟩, rfl⟩, rfl⟩
    · rw [List.mem_map]; exact ⟨n + 1, hn, by omega⟩

/-- What `createBnd` does to the mark of each name. -/
theorem createBnd_get (b : Dict String (List Int)) (f : String) (c : Dict String Arr2) :
    (∃ s, (createBnd b f c).get? f = some s ∧ ∀ n, n ∈ s ↔ n ∈ (b.get? f).getD [] ∨ n ∈ patchNodes c) ∧
    (∀ g, g ≠ f → (createBnd b f c).get? g = b.get? g) ∧ (b.keys.Nodup → (createBnd b f c).keys.Nodup) := by
  unfold createBnd
  cases hb : b.get? f with
  | none =>
    refine ⟨⟨_, Dict.get?_set_self _ _ _, ?_⟩, ?_, ?_⟩
    · intro n; simp
    · intro g hg; exact Dict.get?_set_ne _ _ hg
    · intro h; exact Dict.nodup_keys_set h _ _
  | some s =>
    refine ⟨⟨_, Dict.get?_set_self _ _ _, ?_⟩, ?_, ?_⟩
    · intro n; simp [mem_npUnique]
    · intro g hg; exact Dict.get?_set_ne _ _ hg
    · intro h; exact Dict.nodup_keys_set h _ _

/-- One more entity. -/
def addNamed (fam : Int → Option String) (conn : Int → Dict String Arr2) (b : Dict String (List Int)) (g : Int) :
    Dict String (List Int) :=
  match fam g with
  | some f => createBnd b f (conn g)
  | none => b

/-- The marks after all entities: `fam` gives the name of an entity, `none` when it is left out. -/
theorem families_ok (gs : List Int) (fam : Int → Option String) (conn : Int → Dict String Arr2) :
    ∃ b : Dict String (List Int),
      gs.foldl (addNamed fam conn) [] = b ∧ b.keys.Nodup ∧
      (∀ f, f ∈ b.keys ↔ ∃ g ∈ gs, fam g = some f) ∧
      ∀ f s, b.get? f = some s → ∀ n, n ∈ s ↔ ∃ g ∈ gs, fam g = some f ∧ n ∈ patchNodes (conn g) := by
  induction gs using List.reverseRecOn with
  | nil => exact ⟨[], rfl, by simp [Dict.keys], by simp [Dict.keys], by simp [Dict.get?]⟩
  | append_singleton t g ih =>
    obtain ⟨b, hb, h1, h2, h3⟩ := ih
    rw [List.foldl_append, hb, List.foldl_cons, List.foldl_nil]
    unfold addNamed
    cases hf : fam g with
    | none =>
      refine ⟨b, rfl, h1, ?_, ?_⟩
      · intro f
        rw [h2]
        simp only [List.mem_append, List.mem_singleton]
        constructor
        · rintro ⟨x, hx, hxf⟩; exact ⟨x, .inl hx, hxf⟩
        · rintro ⟨x, hx | rfl, hxf⟩
          · exact ⟨x, hx, hxf⟩
          · rw [hf] at hxf; cases hxf
      · intro f s hs n
        rw [h3 f s hs]
        simp only [List.mem_append, List.mem_singleton]
        constructor
        · rintro ⟨x, hx, hxf⟩; exact ⟨x, .inl hx, hxf⟩
        · rintro ⟨x, hx | rfl, hxf, hn⟩
          · exact ⟨x, hx, hxf, hn⟩
          · rw [hf] at hxf; cases hxf
    | some f =>
      obtain ⟨⟨s', c1, c2⟩, c3, c4⟩ := createBnd_get b f (conn g)
      refine ⟨_, rfl, c4 h1, ?_, ?_⟩
      · intro f'
        by_cases hff : f' = f
        · subst hff
          constructor
          · intro _; exact ⟨g, by simp, hf⟩
          · intro _; exact Dict.mem_keys_iff.2 ⟨s', c1⟩
        · have : f' ∈ (createBnd b f (conn g)).keys ↔ f' ∈ b.keys := by
            rw [Dict.mem_keys_iff, Dict.mem_keys_iff, c3 f' hff]
          rw [this, h2]
          simp only [List.mem_append, List.mem_singleton]
          constructor
          · rintro ⟨x, hx, hxf⟩; exact ⟨x, .inl hx, hxf⟩
          · rintro ⟨x, hx | rfl, hxf⟩
            · exact ⟨x, hx, hxf⟩
            · rw [hf] at hxf; cases hxf; exact absurd rfl hff
      · intro f' s hs n
        by_cases hff : f' = f
        · subst hff
          rw [c1] at hs; cases hs
          rw [c2]
          simp only [List.mem_append, List.mem_singleton]
          constructor
          · rintro (hn | hn)
            · cases hbf : b.get? f' with
              | none => rw [hbf] at hn; simp at hn
              | some s0 =>
                rw [hbf] at hn
                obtain ⟨x, hx, hxf, hxn⟩ := (h3 f' s0 hbf n).1 hn
                exact ⟨x, .inl hx, hxf, hxn⟩
            · exact ⟨g, .inr rfl, hf, hn⟩
          · rintro ⟨x, hx | rfl, hxf, hxn⟩
            · left
              have hk := (h2 f').2 ⟨x, hx, hxf⟩
              obtain ⟨s0, hs0⟩ := Dict.mem_keys_iff.1 hk
              rw [hs0]
              exact (h3 f' s0 hs0 n).2 ⟨x, hx, hxf, hxn⟩
            · right; exact hxn
        · rw [c3 f' hff] at hs
          rw [h3 f' s hs]
          simp only [List.mem_append, List.mem_singleton]
          constructor
          · rintro ⟨x, hx, hxf⟩; exact ⟨x, .inl hx, hxf⟩
          · rintro ⟨x, hx | rfl, hxf, hn⟩
            · exact ⟨x, hx, hxf, hn⟩
            · rw [hf] at hxf; cases hxf; exact absurd rfl hff

/-! ### Cells of the mesh -/

theorem addNew_fold (maxdim : Nat) (calls : List (String × Arr2)) (c : ElemConn)
    (hn : (c.tbl.keys ++ calls.map (·.1)).Nodup) (hd : ∀ p ∈ calls, dimElem.get? p.1 = some maxdim)
    (hc : ConnWF c) (hw : ∀ p ∈ calls, p.2.WF) :
    ∃ c', calls.foldlM (fun (c : ElemConn) p => do
        let dim ← dimElem.getE p.1
        if dim = maxdim then c.addElems p.1 p.2 else return c) c = .ok c' ∧ ConnWF c' ∧
      c'.nelem = c.nelem + (calls.map fun p => p.2.rows.length).sum ∧
      c'.tbl.keys = c.tbl.keys ++ calls.map (·.1) ∧
      (∀ t, (elementsOf c' t).map (·.2) = (elementsOf c t).map (·.2) ++
        match Dict.get? calls t with | some a => a.rows | none => []) ∧
      allIndices c' = allIndices c ++ pyRange c.nelem c'.nelem := by
  obtain ⟨c', e, h⟩ := addPlain_fold calls c hn hc hw
  refine ⟨c', ?_, h⟩
  rw [← e]
  clear e hn hc hw h
  induction calls generalizing c with
  | nil => rfl
  | cons p rest ih =>
    rw [List.foldlM_cons, List.foldlM_cons]
    simp only [Dict.getE_eq_ok.2 (hd p (by simp)), Except_bind_ok, if_true]
    cases c.addElems p.1 p.2 with
    | error e => rfl
    | ok c1 =>
      simp only [Except_bind_ok]
      exact ih c1 (fun p hp => hd p (List.mem_cons_of_mem _ hp))

theorem cells_ok {cells : List Elt} (h : ∀ e ∈ cells, e.Known) (hw : SameWidth cells) {d : Nat} (hd : ∀ e ∈ cells, e.dim = d) :
    ∃ c, ((byType cells).map fun p => (p.1, loweredRows p.2)).foldlM (fun (c : ElemConn) p => do
        let dim ← dimElem.getE p.1
        if dim = d then c.addElems p.1 p.2 else return c) ElemConn.empty = .ok c ∧ IsCells cells c := by
  have hkeys : ((byType cells).map fun p => (p.1, loweredRows p.2)).map (·.1) = firstUse (cells.map Elt.name) := by
    rw [byType_eq, List.map_map, List.map_map]; exact List.map_id' _
  have hmem : ∀ p ∈ (byType cells).map (fun p => (p.1, loweredRows p.2)), ∃ e ∈ cells, p.1 = e.name ∧
      p.2 = loweredRows ((cells.filter fun x => x.name = e.name).map Elt.nodes) := by
    intro p hp
    rw [byType_eq, List.map_map, List.mem_map] at hp
    obtain ⟨t, ht, rfl⟩ := hp
    obtain ⟨e, he, rfl⟩ := List.mem_map.1 (mem_firstUse.1 ht)
    exact ⟨e, he, rfl, rfl⟩
  obtain ⟨c, e1, w, n, k, el, al⟩ := addNew_fold d ((byType cells).map fun p => (p.1, loweredRows p.2)) ElemConn.empty
    (by rw [hkeys]; simpa [ElemConn.empty, Dict.keys] using nodup_firstUse _)
    (by
      intro p hp
      obtain ⟨e, he, hpn, -⟩ := hmem p hp
      rw [hpn, (supported_code (h e he)).2, hd e he])
    connWF_empty
    (by
      intro p hp
      obtain ⟨e, he, -, hp2⟩ := hmem p hp
      rw [hp2]
      unfold Arr2.WF loweredRows
      cases hf : cells.filter (fun x => decide (x.name = e.name)) with
      | nil => rfl
      | cons e0 rest =>
        simp only [List.map_cons, List.head?_cons, Option.map_some]
        have h0 : e0 ∈ cells.filter fun x => x.name = e.name := by rw [hf]; simp
        simp only [List.mem_filter, decide_eq_true_eq] at h0
        intro r hr
        rw [← List.map_cons, ← List.map_cons (f := Elt.nodes), ← hf, List.map_map, List.mem_map] at hr
        obtain ⟨e', he', rfl⟩ := hr
        simp only [List.mem_filter, decide_eq_true_eq] at he'
        simp only [Function.comp_apply, List.length_map]
        rw [hw e0 h0.1 e' he'.1 (h0.2.trans he'.2.symm)])
  have hrows : ∀ t, (match Dict.get? ((byType cells).map fun p => (p.1, loweredRows p.2)) t with
      | some a => a.rows | none => []) = (cells.filter fun e => e.name = t).map fun e => e.nodes.map (· - 1) := by
    intro t
    rw [byType_eq, List.map_map]
    have := Dict.get?_map_mk (firstUse (cells.map Elt.name))
      (fun t => loweredRows ((cells.filter fun e => e.name = t).map Elt.nodes)) t
    simp only [Function.comp_def]
    rw [this]
    by_cases ht : t ∈ firstUse (cells.map Elt.name)
    · rw [if_pos ht]
      simp only [loweredRows, List.map_map]
      rfl
    · rw [if_neg ht]
      have : cells.filter (fun e => decide (e.name = t)) = [] := by
        rw [List.filter_eq_nil_iff]
        intro e he hne
        simp only [decide_eq_true_eq] at hne
        exact ht (mem_firstUse.2 (hne ▸ List.mem_map_of_mem he))
      rw [this]; rfl
  have hrowsall : ∀ t, (elementsOf c t).map (·.2) =
      (cells.filter fun e => e.name = t).map fun e => e.nodes.map (· - 1) := by
    intro t
    rw [el t, hrows t]
    simp [elementsOf, ElemConn.empty, Dict.get?]
  have hnel : c.nelem = cells.length := by
    have h1 : (elements c).length = (c.tbl.keys.map fun t => (elementsOf c t).length).sum := by
      unfold elements elementsOf
      rw [List.length_flatMap, Dict.keys, List.map_map]
      congr 1
      apply List.map_congr_left
      intro p hp
      simp only [Function.comp_apply, List.length_map]
      rw [Dict.get?_of_mem w.keys (show (p.1, p.2) ∈ c.tbl from hp)]
    have h2 : ∀ t, (elementsOf c t).length = (cells.filter fun e => e.name = t).length := by
      intro t
      have := congrArg List.length (hrowsall t)
      simpa using this
    rw [w.nelem, h1, k, hkeys]
    simp only [ElemConn.empty, Dict.keys, List.map_nil, List.nil_append]
    rw [List.map_congr_left (fun t _ => h2 t)]
    clear * -
    induction cells using List.reverseRecOn with
    | nil => rfl
    | append_singleton t a ih =>
      rw [List.map_append, List.map_cons, List.map_nil, firstUse_append_singleton]
      by_cases hm : a.name ∈ t.map Elt.name
      · rw [if_pos hm]
        have : ∀ L : List String, L.Nodup → a.name ∈ L →
            (L.map fun n => ((t ++ [a]).filter fun e => e.name = n).length).sum =
              (L.map fun n => (t.filter fun e => e.name = n).length).sum + 1 := by
          intro L
          induction L with
          | nil => simp
          | cons x L ih =>
            intro hnd hmem
            rw [List.nodup_cons] at hnd
            simp only [List.map_cons, List.sum_cons]
            by_cases hx : a.name = x
            · have hL : (L.map fun n => ((t ++ [a]).filter fun e => e.name = n).length) =
                  L.map fun n => (t.filter fun e => e.name = n).length := by
                apply List.map_congr_left
                intro n hn
                have : a.name ≠ n := by rintro rfl; exact hnd.1 (hx ▸ hn)
                simp [this]
              rw [hL]
              simp [hx]; omega
            · rw [ih hnd.2 (by simpa [hx] using hmem)]
              simp [hx]; omega
        rw [this _ (nodup_firstUse _) (mem_firstUse.2 hm), ih]
        simp
      · rw [if_neg hm, List.map_append, List.sum_append]
        have h1 : (firstUse (t.map Elt.name)).map (fun n => ((t ++ [a]).filter fun e => e.name = n).length) =
            (firstUse (t.map Elt.name)).map fun n => (t.filter fun e => e.name = n).length := by
          apply List.map_congr_left
          intro n hn
          have : a.name ≠ n := by rintro rfl; exact hm (mem_firstUse.1 hn)
          simp [this]
        have h2 : t.filter (fun e => decide (e.name = a.name)) = [] := by
          rw [List.filter_eq_nil_iff]
          intro e he hne
          simp only [decide_eq_true_eq] at hne
          exact hm (hne ▸ List.mem_map_of_mem he)
        rw [h1, ih]
        simp [h2]
  refine ⟨c, e1, w, hnel, ?_, hrowsall, ?_⟩
  · rw [k, hkeys]; simp [ElemConn.empty, Dict.keys]
  · rw [al, hnel]; simp [allIndices, elements, ElemConn.empty]

/-! ### Marks of the mesh -/

theorem addBoco_fold {R : Type} (b : Dict String (List Int)) (m : Mesh R) (mk : String × List Int → Mark)
    (hm : ∀ p, (mk p).name = p.1) (hn : (m.bocos.keys ++ b.keys).Nodup) :
    b.foldl (fun m p => m.addBoco (mk p)) m = { m with bocos := m.bocos ++ b.map fun p => (p.1, mk p) } := by
  induction b generalizing m with
  | nil => simp
  | cons p t ih =>
    have hp : p.1 ∉ m.bocos.keys := by
      intro h
      rw [List.nodup_append] at hn
      exact hn.2.2 p.1 h p.1 (by simp [Dict.keys]) rfl
    have e : m.addBoco (mk p) = { m with bocos := m.bocos ++ [(p.1, mk p)] } := by
      unfold Mesh.addBoco
      rw [hm, Dict.set_of_not_mem _ hp]
    rw [List.foldl_cons, e, ih]
    · simp
    · simpa [Dict.keys] using hn

end Cfd.Gmsh
