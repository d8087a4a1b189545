import Verif.Lemmas.GmshV4
import Verif.Spec.GmshAny

/-! Lemmas on the Gmsh reader: elements of any origin. -/

namespace Cfd.Gmsh
open Cfd.Spec Cfd.Spec.Gmsh Cfd.ElemConn

theorem forall₂_left_mem {α β : Type} {S : α → β → Prop} {l : List α} {l' : List β} (h : List.Forall₂ S l l') {a : α}
    (ha : a ∈ l) : ∃ b ∈ l', S a b := by
  induction h with
  | nil => cases ha
  | cons h1 _ ih =>
    rcases List.mem_cons.1 ha with rfl | ha
    · exact ⟨_, by simp, h1⟩
    · obtain ⟨b, hb, h2⟩ := ih ha
      exact ⟨b, by simp [hb], h2⟩

/-! ### Groups and names -/

theorem bnd2fam_last (l : List Elt) (g : Int) :
    (l.foldl (fun (f : Dict Int Int) e => f.set (entOf e) (physOf e)) []).get? g =
      (l.reverse.find? fun e => entOf e = g).map physOf := by
  induction l using List.reverseRecOn with
  | nil => rfl
  | append_singleton t a ih =>
    rw [List.foldl_append, List.foldl_cons, List.foldl_nil, Dict.get?_set, List.reverse_append, List.reverse_singleton,
      List.singleton_append, List.find?_cons]
    by_cases h : entOf a = g
    · rw [if_pos h.symm]; simp [h]
    · rw [if_neg fun hc => h hc.symm, ih]; simp [h]

theorem nameDicts_last {names : List PhysName} {dims : List String} (hd : dims.length = names.length) (n : Int) :
    (nameDicts names dims).1.get? (toString n) = lastName names n := by
  have key : ∀ (l : List (PhysName × String)) (d : Dict String String × Dict String String),
      (l.foldl (fun d p => (d.1.set (toString p.1.tag) p.1.name, d.2.set p.1.name p.2)) d).1 =
        l.foldl (fun (d : Dict String String) p => d.set (toString p.1.tag) p.1.name) d.1 := by
    intro l
    induction l with
    | nil => intro d; rfl
    | cons a t ih => intro d; rw [List.foldl_cons, ih, List.foldl_cons]
  have gen : ∀ (l : List PhysName), (l.foldl (fun (d : Dict String String) p => d.set (toString p.tag) p.name) []).get? (toString n) =
      lastName l n := by
    intro l
    unfold lastName
    induction l using List.reverseRecOn with
    | nil => rfl
    | append_singleton t a ih =>
      rw [List.foldl_append, List.foldl_cons, List.foldl_nil, Dict.get?_set, List.reverse_append, List.reverse_singleton,
        List.singleton_append, List.find?_cons]
      by_cases h : a.tag = n
      · rw [if_pos (by rw [h])]; simp [h]
      · rw [if_neg (c := toString n = toString a.tag) fun hc => h (Int.repr_inj.1 hc).symm, ih]; simp [h]
  unfold nameDicts
  rw [key, ← gen names]
  congr 1
  have hz : (names.zip dims).map (·.1) = names := List.map_fst_zip (by omega)
  conv_rhs => rw [← hz, List.foldl_map]

/-! ### Words of boundary elements -/

theorem entity_some {e : Elt} (h : 2 ≤ (e.tags ++ e.nodes).length) : e.entity = some (entOf e) ∧ e.group = some (physOf e) := by
  unfold Elt.entity Elt.group entOf physOf
  rw [List.getElem?_eq_getElem (by omega), List.getElem?_eq_getElem (by omega)]
  exact ⟨rfl, rfl⟩

theorem find?_entity {l : List Elt} (ht : ∀ e ∈ l, 2 ≤ (e.tags ++ e.nodes).length) {e : Elt} (he : 2 ≤ (e.tags ++ e.nodes).length) :
    (l.find? fun x => x.entity = e.entity) = l.find? fun x => entOf x = entOf e := by
  induction l with
  | nil => rfl
  | cons a t ih =>
    rw [List.find?_cons, List.find?_cons, ih fun x hx => ht x (List.mem_cons_of_mem _ hx),
      (entity_some (ht a List.mem_cons_self)).1, (entity_some he).1]
    simp only [Option.some.injEq]

theorem lastGroup_eq {l : List Elt} (ht : ∀ e ∈ l, 2 ≤ (e.tags ++ e.nodes).length) {e : Elt} (he : e ∈ l) :
    ∃ x ∈ l, entOf x = entOf e ∧ lastGroup l e = some (physOf x) ∧
      (l.foldl (fun (f : Dict Int Int) e => f.set (entOf e) (physOf e)) []).get? (entOf e) = some (physOf x) := by
  rw [bnd2fam_last]
  unfold lastGroup
  rw [find?_entity (fun x hx => ht x (List.mem_reverse.1 hx)) (ht e he)]
  cases hc : l.reverse.find? (fun x => decide (entOf x = entOf e)) with
  | none =>
    rw [List.find?_eq_none] at hc
    exact absurd (decide_eq_true rfl) (hc e (List.mem_reverse.2 he))
  | some x =>
    have hx := List.mem_reverse.1 (List.mem_of_find?_eq_some hc)
    refine ⟨x, hx, by simpa using List.find?_some hc, ?_, rfl⟩
    exact (entity_some (ht x hx)).2

theorem known_name {e e' : Elt} (h : e.Known) (h' : e'.Known) : e.name = e'.name ↔ e.type = e'.type := by
  obtain ⟨n, h⟩ := known_entry h
  obtain ⟨n', h'⟩ := known_entry h'
  have key : ∀ p ∈ documented, ∀ q ∈ documented, (p.2.1 = q.2.1 ↔ p.1 = q.1) := by decide
  exact key _ h _ h'

/-- Name of an entity. -/
def lastEntity (names : Option (List PhysName)) (borders : List Elt) (g : Int) : Option String :=
  match names with
  | none => some "fluid"
  | some l => (((borders.reverse.find? fun e => entOf e = g).map physOf).bind (lastName l)).filter fun f => f ≠ "fluid"

/-- One entity. -/
theorem addFamily_eq {names : Option (List PhysName)} {fam : Option (Dict String String)} {borders : List Elt}
    (h0 : names = none → fam = none)
    (hd : ∀ l, names = some l → ∃ d, fam = some d ∧ ∀ n : Int, d.get? (toString n) = lastName l n)
    (ht : ∀ e ∈ borders, 2 ≤ (e.tags ++ e.nodes).length) {e : Elt} (he : e ∈ borders) (b : Dict String (List Int)) :
    (∀ l, names = some l → ∃ g, lastGroup borders e = some g ∧ ∃ p ∈ l, p.tag = g) ∧
      addFamily fam (borders.foldl (fun (f : Dict Int Int) e => f.set (entOf e) (physOf e)) []) b
        (entOf e, patchOf borders (entOf e)) = .ok (addNamed (lastEntity names borders) (patchOf borders) b (entOf e)) ∨
    ¬ (∀ l, names = some l → ∃ g, lastGroup borders e = some g ∧ ∃ p ∈ l, p.tag = g) ∧
      addFamily fam (borders.foldl (fun (f : Dict Int Int) e => f.set (entOf e) (physOf e)) []) b
        (entOf e, patchOf borders (entOf e)) = .error .key := by
  cases names with
  | none =>
    left
    refine ⟨fun l h => (Option.some_ne_none l h.symm).elim, ?_⟩
    rw [h0 rfl]; rfl
  | some l =>
    obtain ⟨dict, rfl, hdict⟩ := hd l rfl
    obtain ⟨x, hx, -, hl, hb⟩ := lastGroup_eq ht he
    have hb' := hb
    rw [bnd2fam_last] at hb'
    cases hn : lastName l (physOf x) with
    | none =>
      right
      constructor
      · intro h
        obtain ⟨g, hg, p, hp, hpt⟩ := h l rfl
        rw [hl, Option.some.injEq] at hg
        unfold lastName at hn
        rw [Option.map_eq_none_iff, List.find?_eq_none] at hn
        exact absurd (hpt.trans hg.symm) (by simpa using hn p (List.mem_reverse.2 hp))
      · have hk : dict.get? (toString (physOf x)) = none := by rw [hdict, hn]
        have : dict.getE (toString (physOf x)) = .error .key := by unfold Dict.getE; rw [hk]
        simp only [addFamily, Dict.getE_eq_ok.2 hb, Except_bind_ok, pyStr, this]
        rfl
    | some f =>
      left
      constructor
      · intro l' hl'
        cases hl'
        refine ⟨_, hl, ?_⟩
        unfold lastName at hn
        obtain ⟨p, hp, -⟩ := Option.map_eq_some_iff.1 hn
        exact ⟨p, List.mem_reverse.1 (List.mem_of_find?_eq_some hp), by simpa using List.find?_some hp⟩
      · have hk : dict.get? (toString (physOf x)) = some f := by rw [hdict, hn]
        unfold addNamed
        simp only [addFamily, Dict.getE_eq_ok.2 hb, Except_bind_ok, pyStr, Dict.getE_eq_ok.2 hk, lastEntity, hb', Option.bind_some,
          hn, Except_pure]
        by_cases hfl : f = "fluid"
        · subst hfl; simp [Option.filter]
        · simp [Option.filter, hfl]

theorem addFamily_fold {names : Option (List PhysName)} {fam : Option (Dict String String)} {borders : List Elt}
    (h0 : names = none → fam = none)
    (hd : ∀ l, names = some l → ∃ d, fam = some d ∧ ∀ n : Int, d.get? (toString n) = lastName l n)
    (ht : ∀ e ∈ borders, 2 ≤ (e.tags ++ e.nodes).length)
    (hn : ∀ l, names = some l → ∀ e ∈ borders, ∃ g, lastGroup borders e = some g ∧ ∃ p ∈ l, p.tag = g)
    (gs : List Int) (hgs : ∀ g ∈ gs, g ∈ borders.map entOf) (b : Dict String (List Int)) :
    (gs.map fun g => (g, patchOf borders g)).foldlM
      (addFamily fam (borders.foldl (fun (f : Dict Int Int) e => f.set (entOf e) (physOf e)) [])) b =
    .ok (gs.foldl (addNamed (lastEntity names borders) (patchOf borders)) b) := by
  induction gs generalizing b with
  | nil => rfl
  | cons g t ih =>
    rw [List.map_cons, List.foldlM_cons, List.foldl_cons]
    obtain ⟨e, he, rfl⟩ := List.mem_map.1 (hgs g List.mem_cons_self)
    rcases addFamily_eq h0 hd ht he b with ⟨-, h⟩ | ⟨h, -⟩
    · rw [h, Except_bind_ok]
      exact ih (fun g hg => hgs g (List.mem_cons_of_mem _ hg)) _
    · exact absurd (fun l hl => hn l hl e he) h

theorem addFamily_named {names : Option (List PhysName)} {fam : Option (Dict String String)} {borders : List Elt}
    (h0 : names = none → fam = none)
    (hd : ∀ l, names = some l → ∃ d, fam = some d ∧ ∀ n : Int, d.get? (toString n) = lastName l n)
    (ht : ∀ e ∈ borders, 2 ≤ (e.tags ++ e.nodes).length)
    (gs : List Int) (hgs : ∀ g ∈ gs, g ∈ borders.map entOf) (b r : Dict String (List Int))
    (h : (gs.map fun g => (g, patchOf borders g)).foldlM
      (addFamily fam (borders.foldl (fun (f : Dict Int Int) e => f.set (entOf e) (physOf e)) [])) b = .ok r) :
    ∀ e ∈ borders, entOf e ∈ gs → ∀ l, names = some l → ∃ g, lastGroup borders e = some g ∧ ∃ p ∈ l, p.tag = g := by
  induction gs generalizing b with
  | nil => intro e _ hg; cases hg
  | cons g t ih =>
    rw [List.map_cons, List.foldlM_cons] at h
    obtain ⟨b1, h1, h2⟩ := bind_eq_ok.1 h
    intro e he hg
    rcases List.mem_cons.1 hg with hg | hg
    · subst hg
      rcases addFamily_eq h0 hd ht he b with ⟨h', -⟩ | ⟨-, h'⟩
      · exact h'
      · rw [h'] at h1; cases h1
    · exact ih (fun g hg => hgs g (List.mem_cons_of_mem _ hg)) b1 h2 e he hg

/-! ### What success of each step implies -/

theorem eltDim_known {e : Elt} {d : Nat} (h : eltDim e.line = .ok d) : e.Known := by
  unfold eltDim at h
  rw [line_type, Except_bind_ok] at h
  obtain ⟨name, h1, h2⟩ := bind_eq_ok.1 h
  have key : ∀ p ∈ gmshType, (dimElem.get? p.2).isSome → (documented.get? p.1).isSome := by decide
  exact key (e.type, name) (Dict.mem_of_get? (Dict.getE_eq_ok.1 h1)) (by rw [Dict.getE_eq_ok.1 h2]; rfl)

theorem maxDim_known {elts : List Elt} {d : Nat} (h : maxDim (elts.map Elt.line) = .ok d) :
    (∀ e ∈ elts, e.Known) ∧ elts ≠ [] := by
  unfold maxDim at h
  obtain ⟨l, h1, h2⟩ := bind_eq_ok.1 h
  constructor
  · intro e he
    rw [mapM_ok_iff, List.forall₂_map_left_iff] at h1
    obtain ⟨d, -, hd⟩ := forall₂_left_mem h1 he
    exact eltDim_known hd
  · rintro rfl
    cases h1
    cases h2

theorem addBnd_tags {elts : List Elt} (h : ∀ e ∈ elts, e.Known) (d : Nat) (st r : BndState)
    (hok : (elts.map Elt.line).foldlM (addBnd d) st = .ok r) :
    ∀ e ∈ elts, e.dim = d → 2 ≤ (e.tags ++ e.nodes).length := by
  induction elts generalizing st with
  | nil => intro e he; cases he
  | cons a t ih =>
    rw [List.map_cons, List.foldlM_cons] at hok
    obtain ⟨st1, h1, h2⟩ := bind_eq_ok.1 hok
    intro e he hd
    rcases List.mem_cons.1 he with rfl | he
    · unfold addBnd at h1
      rw [typeOfDim_ok (h e List.mem_cons_self), Except_bind_ok, if_pos hd] at h1
      obtain ⟨ntag, -, h1⟩ := bind_eq_ok.1 h1
      obtain ⟨tag, h3, -⟩ := bind_eq_ok.1 h1
      by_contra hc
      have : npGet e.line 4 = .error .index := by
        have hlen : e.line.length < 5 := by
          unfold Elt.line
          simp only [List.length_cons, List.length_append] at hc ⊢
          omega
        unfold npGet
        simp only [show ¬ ((4 : Int) < 0) by decide, if_false]
        rw [show (4 : Int).toNat = 4 from rfl, List.getElem?_eq_none (by omega)]
      rw [this] at h3; cases h3
    · exact ih (fun x hx => h x (List.mem_cons_of_mem _ hx)) st1 h2 e he hd

theorem lowered_same {rows : List (List Int)} {a : Arr2} (h : lowered rows = .ok a) :
    ∀ r ∈ rows, ∀ s ∈ rows, r.length = s.length := by
  unfold lowered at h
  cases rows with
  | nil => intro r hr; cases hr
  | cons x t =>
    simp only at h
    split at h
    · rename_i hall
      rw [List.all_eq_true] at hall
      have key : ∀ r ∈ x :: t, r.length = x.length := by
        intro r hr
        rcases List.mem_cons.1 hr with rfl | hr
        · rfl
        · simpa using hall r hr
      intro r hr s hs
      rw [key r hr, key s hs]
    · cases h

theorem loweredAll_same {l : List Elt} {d : Dict String Arr2} (h : loweredAll (byType l) = .ok d) : SameWidth l := by
  unfold loweredAll at h
  rw [mapM_ok_iff] at h
  intro e he e' he' hn
  have hmem : (e.name, (l.filter fun x => x.name = e.name).map Elt.nodes) ∈ byType l := by
    rw [byType_eq, List.mem_map]
    exact ⟨e.name, mem_firstUse.2 (List.mem_map_of_mem he), rfl⟩
  obtain ⟨q, -, hq⟩ := forall₂_left_mem h hmem
  obtain ⟨a, ha, -⟩ := bind_eq_ok.1 hq
  refine lowered_same ha e.nodes (List.mem_map_of_mem (by simp [he])) e'.nodes (List.mem_map_of_mem (by simp [he', hn]))

theorem patches_same {l : List Elt} {d : List (Int × Dict String Arr2)} (h : (byEntity l).mapM (fun p => do
      let c ← loweredAll p.2
      return (p.1, c)) = .ok d) (g : Int) : SameWidth (l.filter fun e => entOf e = g) := by
  rw [mapM_ok_iff] at h
  by_cases hg : g ∈ l.map entOf
  · have hmem : (g, byType (l.filter fun e => entOf e = g)) ∈ byEntity l := by
      unfold byEntity
      rw [List.mem_map]
      exact ⟨g, mem_firstUse.2 hg, rfl⟩
    obtain ⟨q, -, hq⟩ := forall₂_left_mem h hmem
    obtain ⟨a, ha, -⟩ := bind_eq_ok.1 hq
    exact loweredAll_same ha
  · intro e he
    simp only [List.mem_filter, decide_eq_true_eq] at he
    exact absurd (he.2 ▸ List.mem_map_of_mem he.1) hg

/-- What is needed. -/
theorem readable_of {R : Type} {s : Sections R} {names : Option (List PhysName)} {elts : List Elt} (hel : s.elts = elts.map Elt.line)
    (hf0 : names = none → s.fam = none)
    (hf1 : ∀ l, names = some l → ∃ d, s.fam = some d ∧ ∀ n : Int, d.get? (toString n) = lastName l n)
    {st : State R} (h : analyze s = .ok st) : Readable names elts := by
  unfold analyze at h
  rw [hel] at h
  obtain ⟨d, h1, h⟩ := bind_eq_ok.1 h
  obtain ⟨hkn, hne⟩ := maxDim_known h1
  rw [maxDim_ok hkn hne, Except.ok.injEq] at h1
  subst h1
  split at h
  · cases h
  rename_i htop
  have hborders : elts.filter (fun e => decide (e.dim = topDim elts - 1)) = bordersOf elts := by
    unfold bordersOf
    apply List.filter_congr
    intro e _
    rw [decide_eq_decide]; omega
  obtain ⟨conn, h2, h⟩ := bind_eq_ok.1 h
  rw [conn_ok hkn, Except.ok.injEq] at h2
  subst h2
  obtain ⟨⟨bc, bf⟩, h3, h⟩ := bind_eq_ok.1 h
  have htags : ∀ e ∈ bordersOf elts, 2 ≤ (e.tags ++ e.nodes).length := by
    intro e he
    rw [← hborders, List.mem_filter, decide_eq_true_eq] at he
    exact addBnd_tags hkn _ _ _ h3 e he.1 he.2
  have h3' := addBnd_fold hkn (topDim elts - 1) (by
    intro e he hd
    exact htags e (by rw [← hborders]; simp [he, hd])) [] []
  rw [hborders, show byEntity [] = [] from rfl, List.nil_append] at h3'
  rw [h3', Except.ok.injEq, Prod.mk.injEq] at h3
  obtain ⟨rfl, rfl⟩ := h3
  obtain ⟨cells, h4, h⟩ := bind_eq_ok.1 h
  obtain ⟨bc, h5, h⟩ := bind_eq_ok.1 h
  obtain ⟨b, h6, -⟩ := bind_eq_ok.1 h
  have hwc : SameWidth (cellsOf elts) := loweredAll_same h4
  have hwb := patches_same h5
  rw [patches_ok hwb, Except.ok.injEq] at h5
  subst h5
  have hnamed := addFamily_named hf0 hf1 htags _ (fun g hg => mem_firstUse.1 hg) _ _ h6
  have hknc : ∀ e ∈ cellsOf elts, e.Known := fun e he => hkn e (List.mem_of_mem_filter he)
  have hknb : ∀ e ∈ bordersOf elts, e.Known := fun e he => hkn e (List.mem_of_mem_filter he)
  refine ⟨hkn, by omega, ?_, htags, ?_, ?_⟩
  · intro e he e' he' ht
    exact hwc e he e' he' ((known_name (hknc e he) (hknc e' he')).2 ht)
  · intro e he e' he' hee ht
    rw [(entity_some (htags e he)).1, (entity_some (htags e' he')).1, Option.some.injEq] at hee
    exact hwb (entOf e) e (by simp [he]) e' (by simp [he', hee]) ((known_name (hknb e he) (hknb e' he')).2 ht)
  · intro l hl e he
    exact hnamed e he (mem_firstUse.2 (List.mem_map_of_mem he)) l hl

/-- It is enough, and the mesh read. -/
theorem readable_mesh {R : Type} {s : Sections R} {pts : List (Option (R × R × R))} {names : Option (List PhysName)}
    {elts : List Elt} (hx : s.x = pts.map (Option.map fun q => q.1)) (hy : s.y = pts.map (Option.map fun q => q.2.1))
    (hz : s.z = pts.map (Option.map fun q => q.2.2)) (hel : s.elts = elts.map Elt.line)
    (hf0 : names = none → s.fam = none)
    (hf1 : ∀ l, names = some l → ∃ d, s.fam = some d ∧ ∀ n : Int, d.get? (toString n) = lastName l n)
    (hr : Readable names elts) :
    ∃ st m, analyze s = .ok st ∧ exportMesh st = .ok m ∧ IsMeshWith pts (readBoundary names elts) elts m := by
  have hknc : ∀ e ∈ cellsOf elts, e.Known := fun e he => hr.types e (List.mem_of_mem_filter he)
  have hknb : ∀ e ∈ bordersOf elts, e.Known := fun e he => hr.types e (List.mem_of_mem_filter he)
  refine mesh_of_parts hx hy hz hel hr.types hr.top ?_ hr.tags ?_ (lastEntity names (bordersOf elts)) _
    (addFamily_fold hf0 hf1 hr.tags hr.named _ (fun g hg => mem_firstUse.1 hg) []) ?_ ?_
  · intro e he e' he' hn
    exact hr.cells e he e' he' ((known_name (hknc e he) (hknc e' he')).1 hn)
  · intro g e he e' he' hn
    simp only [List.mem_filter, decide_eq_true_eq] at he he'
    refine hr.patches e he.1 e' he'.1 ?_ ((known_name (hknb e he.1) (hknb e' he'.1)).1 hn)
    rw [(entity_some (hr.tags e he.1)).1, (entity_some (hr.tags e' he'.1)).1, he.2, he'.2]
  · intro name hni e he
    unfold lastEntity readBoundary
    cases names with
    | none => rfl
    | some l =>
      obtain ⟨x, hx, -, h1, h2⟩ := lastGroup_eq hr.tags he
      rw [bnd2fam_last] at h2
      simp only
      rw [h1, h2, Option.bind_some]
      cases lastName l (physOf x) with
      | none => simp
      | some f =>
        simp only [Option.filter]
        by_cases h1 : f = "fluid"
        · subst h1; simp
        · by_cases h2 : f = "int_fluid"
          · subst h2; simp; exact fun h => hni h.symm
          · simp [h1, h2]
  · intro e
    unfold readBoundary
    cases names with
    | none => simp
    | some l =>
      simp only
      cases (lastGroup (bordersOf elts) e).bind (lastName l) with
      | none => simp
      | some f =>
        simp only [Option.filter]
        by_cases h2 : f = "int_fluid"
        · subst h2; simp
        · split
          · simpa using h2
          · simp

end Cfd.Gmsh
