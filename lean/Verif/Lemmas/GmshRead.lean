import Verif.Lemmas.GmshMesh

/-! Lemmas on the Gmsh reader: whole meshes. -/

namespace Cfd.Gmsh
open Cfd.Spec Cfd.Spec.Gmsh Cfd.ElemConn

/-- What the sections of a file with this content give. -/
def sectionsOf {R : Type} (pts : List (Option (R × R × R))) (names : Option (List PhysName)) (dims : List String)
    (elts : List Elt) : Sections R :=
  ⟨names.map fun l => (nameDicts l dims).1, names.map fun l => (nameDicts l dims).2,
    pts.map (Option.map fun q => q.1), pts.map (Option.map fun q => q.2.1), pts.map (Option.map fun q => q.2.2),
    elts.map Elt.line⟩

/-- Patch of an entity. -/
def patchOf (borders : List Elt) (g : Int) : Dict String Arr2 :=
  (byType (borders.filter fun e => entOf e = g)).map fun p => (p.1, loweredRows p.2)

theorem patches_ok {l : List Elt} (h : ∀ g, SameWidth (l.filter fun e => entOf e = g)) :
    (byEntity l).mapM (fun p => do
      let c ← loweredAll p.2
      return (p.1, c)) = .ok ((firstUse (l.map entOf)).map fun g => (g, patchOf l g)) := by
  have : (byEntity l).mapM (fun p => (do
      let c ← loweredAll p.2
      return (p.1, c) : Py (Int × Dict String Arr2))) =
      .ok ((byEntity l).map fun p => (p.1, p.2.map fun q => (q.1, loweredRows q.2))) := by
    apply mapM_ok_of_forall
    intro p hp
    unfold byEntity at hp
    obtain ⟨g, -, rfl⟩ := List.mem_map.1 hp
    simp only
    rw [loweredAll_ok (h g)]
    rfl
  rw [this]
  congr 1
  unfold byEntity
  rw [List.map_map]
  rfl

/-- Name under which an entity is recorded, `fluid` being left out. -/
def entityName (names : Option (List PhysName)) (borders : List Elt) (g : Int) : Option String :=
  match names with
  | none => some "fluid"
  | some l => ((borders.find? fun e => entOf e = g).bind (familyOf l)).filter fun f => f ≠ "fluid"

theorem families_fold {names : Option (List PhysName)} {fam : Option (Dict String String)} {borders : List Elt}
    (h0 : names = none → fam = none)
    (hd : ∀ l, names = some l → ∃ d, fam = some d ∧ ∀ p ∈ l, d.get? (toString p.tag) = some p.name)
    (ht : ∀ e ∈ borders, 2 ≤ e.tags.length)
    (he : ∀ e ∈ borders, ∀ e' ∈ borders, e.tags[1]? = e'.tags[1]? → e.tags[0]? = e'.tags[0]?)
    (hf : ∀ l, names = some l → ∀ e ∈ borders, (familyOf l e).isSome)
    (gs : List Int) (hgs : ∀ g ∈ gs, g ∈ borders.map entOf) (b : Dict String (List Int)) :
    (gs.map fun g => (g, patchOf borders g)).foldlM
      (addFamily fam
        (borders.foldl (fun (f : Dict Int Int) e => f.set (entOf e) (physOf e)) [])) b =
    .ok (gs.foldl (addNamed (entityName names borders) (patchOf borders)) b) := by
  have tag0 : ∀ e ∈ borders, e.tags[0]? = some (physOf e) := fun e hb => phys_tag (ht e hb)
  have tag1 : ∀ e ∈ borders, e.tags[1]? = some (entOf e) := fun e hb => ent_tag (ht e hb)
  have hcons : ∀ e ∈ borders, ∀ e' ∈ borders, entOf e = entOf e' → physOf e = physOf e' := by
    intro e h1 e' h2 hh
    have := he e h1 e' h2 (by rw [tag1 e h1, tag1 e' h2, hh])
    rw [tag0 e h1, tag0 e' h2] at this
    exact Option.some.inj this
  induction gs generalizing b with
  | nil => rfl
  | cons g t ih =>
    rw [List.map_cons, List.foldlM_cons, List.foldl_cons]
    have hstep : addFamily fam
        (borders.foldl (fun (f : Dict Int Int) e => f.set (entOf e) (physOf e)) []) b (g, patchOf borders g) =
        .ok (addNamed (entityName names borders) (patchOf borders) b g) := by
      unfold addNamed
      cases names with
      | none => rw [h0 rfl]; rfl
      | some l =>
        obtain ⟨dict, rfl, hdict⟩ := hd l rfl
        obtain ⟨e0, he0, hg0⟩ := List.mem_map.1 (hgs g List.mem_cons_self)
        have hfind : ∃ e ∈ borders, borders.find? (fun e => decide (entOf e = g)) = some e ∧ entOf e = g := by
          cases hc : borders.find? (fun e => decide (entOf e = g)) with
          | none =>
            rw [List.find?_eq_none] at hc
            exact absurd hg0 (by simpa using hc e0 he0)
          | some e =>
            exact ⟨e, List.mem_of_find?_eq_some hc, rfl, by simpa using List.find?_some hc⟩
        obtain ⟨e, heb, hfe, hge⟩ := hfind
        obtain ⟨f, hff⟩ := Option.isSome_iff_exists.1 (hf l rfl e heb)
        have hname : dict.get? (toString (physOf e)) = some f := by
          unfold familyOf at hff
          cases hc : l.find? (fun p => decide (p.dim = (e.dim : Int) ∧ e.tags[0]? = some p.tag)) with
          | none => rw [hc] at hff; cases hff
          | some p =>
            rw [hc] at hff
            have hp := List.mem_of_find?_eq_some hc
            have hpt := List.find?_some hc
            simp only [decide_eq_true_eq] at hpt
            have hpp : p.tag = physOf e := by
              have := hpt.2; rw [tag0 e heb] at this; exact (Option.some.inj this).symm
            rw [← hpp, hdict p hp]
            exact hff
        have hb2f := bnd2fam_get hcons heb
        rw [hge] at hb2f
        simp only [addFamily, Dict.getE_eq_ok.2 hb2f, Except_bind_ok, pyStr,
          Dict.getE_eq_ok.2 hname, entityName, hfe, Option.bind_some, hff, Except_pure]
        by_cases hfl : f = "fluid"
        · subst hfl; simp [Option.filter]
        · simp [Option.filter, hfl]
    rw [hstep, Except_bind_ok]
    exact ih (fun g hg => hgs g (List.mem_cons_of_mem _ hg)) _

theorem get?_filter_key {V : Type} (d : Dict String V) (x k : String) :
    Dict.get? (d.filter fun p => decide (p.1 ≠ x)) k = if k = x then none else d.get? k := by
  induction d with
  | nil => simp [Dict.get?]
  | cons p t ih =>
    by_cases hp : p.1 = x
    · rw [List.filter_cons_of_neg (by simpa using hp), ih]
      by_cases hk : k = x
      · simp [hk]
      · have : p.1 ≠ k := by rw [hp]; exact fun h => hk h.symm
        simp [hk, Dict.get?, this]
    · rw [List.filter_cons_of_pos (by simpa using hp)]
      simp only [Dict.get?, ih]
      by_cases hk : p.1 = k
      · have : k ≠ x := by rw [← hk]; exact hp
        simp [hk, this]
      · simp [hk]

/-- From the sections to the mesh, `ename` giving the name of an entity and `boundary` the boundary of an element. -/
theorem mesh_of_parts {R : Type} {s : Sections R} {pts : List (Option (R × R × R))} {elts : List Elt}
    (hx : s.x = pts.map (Option.map fun q => q.1)) (hy : s.y = pts.map (Option.map fun q => q.2.1))
    (hz : s.z = pts.map (Option.map fun q => q.2.2)) (hel : s.elts = elts.map Elt.line)
    (hkn : ∀ e ∈ elts, e.Known) (htop : 2 ≤ topDim elts) (hwc : SameWidth (cellsOf elts))
    (ht : ∀ e ∈ bordersOf elts, 2 ≤ (e.tags ++ e.nodes).length)
    (hwb : ∀ g, SameWidth ((bordersOf elts).filter fun e => entOf e = g))
    (ename : Int → Option String) (boundary : Elt → Option String)
    (hfam : ((firstUse ((bordersOf elts).map entOf)).map fun g => (g, patchOf (bordersOf elts) g)).foldlM
      (addFamily s.fam
        ((bordersOf elts).foldl (fun (f : Dict Int Int) e => f.set (entOf e) (physOf e)) [])) [] =
      .ok ((firstUse ((bordersOf elts).map entOf)).foldl (addNamed ename (patchOf (bordersOf elts))) []))
    (hname : ∀ name, name ≠ "int_fluid" → ∀ e ∈ bordersOf elts,
      (ename (entOf e) = some name ↔ boundary e = some name))
    (hint : ∀ e, boundary e ≠ some "int_fluid") :
    ∃ st m, analyze s = .ok st ∧ exportMesh st = .ok m ∧ IsMeshWith pts boundary elts m := by
  have hne : elts ≠ [] := by rintro rfl; simp [topDim] at htop
  have hcells : elts.filter (fun e => decide (e.dim = topDim elts)) = cellsOf elts := rfl
  have hborders : elts.filter (fun e => decide (e.dim = topDim elts - 1)) = bordersOf elts := by
    unfold bordersOf
    apply List.filter_congr
    intro e _
    rw [decide_eq_decide]; omega
  have hknC : ∀ e ∈ cellsOf elts, e.Known := fun e he => hkn e (List.mem_of_mem_filter he)
  have hdimC : ∀ e ∈ cellsOf elts, e.dim = topDim elts := by
    intro e he; simpa using (List.mem_filter.1 he).2
  obtain ⟨b, hbeq, hbn, hbk, hbs⟩ := families_ok (firstUse ((bordersOf elts).map entOf)) ename (patchOf (bordersOf elts))
  obtain ⟨c, hc, hcells'⟩ := cells_ok hknC hwc hdimC
  have hbc := addBnd_fold hkn (topDim elts - 1) (by
    intro e he hd
    exact ht e (by rw [← hborders]; simp [he, hd])) [] []
  rw [hborders] at hbc
  have hsplit : byEntity [] = [] := rfl
  rw [hsplit, List.nil_append] at hbc
  rw [hbeq] at hfam
  have hst : analyze s = .ok ⟨topDim elts,
      (pts.map (Option.map fun q => q.1), pts.map (Option.map fun q => q.2.1), pts.map (Option.map fun q => q.2.2)),
      (byType (cellsOf elts)).map fun p => (p.1, loweredRows p.2), b.filter fun p => p.1 ≠ "int_fluid"⟩ := by
    have e0 : maxDim (elts.map Elt.line) = .ok (topDim elts) := maxDim_ok hkn hne
    have e1 := conn_ok hkn (topDim elts)
    rw [hcells] at e1
    unfold analyze
    rw [hel, e0, Except_bind_ok, if_neg (by omega)]
    simp only [hx, hy, hz]
    rw [e1, Except_bind_ok, hbc, Except_bind_ok]
    simp only
    rw [loweredAll_ok hwc, Except_bind_ok, patches_ok hwb, Except_bind_ok, hfam, Except_bind_ok]
    rfl
  -- the marks
  have hmk : ∀ p : String × List Int, (⟨p.1, .bdnode, "boundary", .list p.2, some (List.replicate 16 0)⟩ : Mark).name = p.1 :=
    fun _ => rfl
  have hbfn : (Dict.keys (b.filter fun p => decide (p.1 ≠ "int_fluid"))).Nodup :=
    List.Nodup.sublist (List.Sublist.map _ List.filter_sublist) hbn
  have hents : ∀ name, name ≠ "int_fluid" → ∀ P : Elt → Prop,
      ((∃ g ∈ firstUse ((bordersOf elts).map entOf), ename g = some name ∧
        ∃ e ∈ (bordersOf elts).filter (fun e => decide (entOf e = g)), P e) ↔
      ∃ e ∈ bordersOf elts, boundary e = some name ∧ P e) := by
    intro name hni P
    constructor
    · rintro ⟨g, hg, hgn, e, he, hP⟩
      simp only [List.mem_filter, decide_eq_true_eq] at he
      obtain ⟨he, rfl⟩ := he
      exact ⟨e, he, (hname name hni e he).1 hgn, hP⟩
    · rintro ⟨e, he, hen, hP⟩
      exact ⟨entOf e, mem_firstUse.2 (List.mem_map_of_mem he), (hname name hni e he).2 hen, e, by simp [he], hP⟩
  have hkeys : ∀ name, name ∈ Dict.keys (b.filter fun p => decide (p.1 ≠ "int_fluid")) ↔
      ∃ e ∈ bordersOf elts, boundary e = some name := by
    intro name
    rw [Dict.mem_keys_iff, get?_filter_key]
    by_cases hni : name = "int_fluid"
    · subst hni
      simp only [if_true]
      constructor
      · rintro ⟨v, hv⟩; cases hv
      · rintro ⟨e, -, he⟩; exact absurd he (hint e)
    · rw [if_neg hni, ← Dict.mem_keys_iff, hbk]
      have := hents name hni (fun _ => True)
      simp only [and_true] at this
      rw [← this]
      constructor
      · rintro ⟨g, hg, hgn⟩
        obtain ⟨e, he, rfl⟩ := List.mem_map.1 (mem_firstUse.1 hg)
        exact ⟨entOf e, hg, hgn, e, by simp [he]⟩
      · rintro ⟨g, hg, hgn, -⟩; exact ⟨g, hg, hgn⟩
  refine ⟨_, ⟨(cellsOf elts).length, pts.length, 0, some c, [], some (pts.map (Option.map fun q => q.1),
    pts.map (Option.map fun q => q.2.1), pts.map (Option.map fun q => q.2.2)),
    (b.filter fun p => decide (p.1 ≠ "int_fluid")).map fun p =>
      (p.1, ⟨p.1, .bdnode, "boundary", .list p.2, some (List.replicate 16 0)⟩)⟩, hst, ?_, ?_⟩
  · unfold exportMesh
    have hset : (Mesh.new 0 (pts.map (Option.map fun q : R × R × R => q.1)).length : Mesh (Option R)).setCoords
        (pts.map (Option.map fun q => q.1)) (pts.map (Option.map fun q => q.2.1)) (pts.map (Option.map fun q => q.2.2)) =
        .ok ⟨0, pts.length, 0, none, [], some (pts.map (Option.map fun q => q.1), pts.map (Option.map fun q => q.2.1),
          pts.map (Option.map fun q => q.2.2)), []⟩ := by
      simp only [Mesh.setCoords, Mesh.new, List.length_map, decide_true, pyAssert, if_true, Except_bind_ok, Except_pure]
    rw [hset, Except_bind_ok, hc, Except_bind_ok]
    simp only
    rw [addBoco_fold _ _ _ hmk (by simpa [Mesh.setCell2node, Dict.keys] using hbfn)]
    simp only [Mesh.setCell2node, List.nil_append, hcells'.count]
    rfl
  · refine ⟨rfl, rfl, rfl, ⟨c, rfl, hcells'⟩, ?_, ?_, ?_⟩
    · simpa [Dict.keys, List.map_map, Function.comp_def] using hbfn
    · intro name
      rw [← hkeys]
      simp [Dict.keys, List.map_map, Function.comp_def]
    · intro name mk hget
      have hmem := Dict.mem_of_get? hget
      rw [List.mem_map] at hmem
      obtain ⟨p, hp, hpe⟩ := hmem
      simp only [Prod.mk.injEq] at hpe
      obtain ⟨rfl, rfl⟩ := hpe
      refine ⟨rfl, rfl, rfl, ?_⟩
      intro n
      simp only [markItems, IndexList.toList]
      have hpn : p.1 ≠ "int_fluid" := by simpa using (List.mem_filter.1 hp).2
      have hpg : b.get? p.1 = some p.2 := Dict.get?_of_mem hbn (List.mem_of_mem_filter hp)
      rw [hbs _ _ hpg, ← hents p.1 hpn (fun e => n + 1 ∈ e.nodes)]
      constructor
      · rintro ⟨g, hg, hgn, hn⟩
        exact ⟨g, hg, hgn, mem_patchNodes.1 hn⟩
      · rintro ⟨g, hg, hgn, hn⟩
        exact ⟨g, hg, hgn, mem_patchNodes.2 hn⟩

/-- From the sections to the mesh. -/
theorem mesh_ok {R : Type} {s : Sections R} {pts : List (Option (R × R × R))} {names : Option (List PhysName)}
    {elts : List Elt} (hx : s.x = pts.map (Option.map fun q => q.1)) (hy : s.y = pts.map (Option.map fun q => q.2.1))
    (hz : s.z = pts.map (Option.map fun q => q.2.2)) (hel : s.elts = elts.map Elt.line)
    (hf0 : names = none → s.fam = none)
    (hf1 : ∀ l, names = some l → ∃ d, s.fam = some d ∧ ∀ p ∈ l, d.get? (toString p.tag) = some p.name)
    (hsup : ∀ e ∈ elts, e.Supported) (htop : 2 ≤ topDim elts)
    (hb : BordersOk names elts) :
    ∃ st m, analyze s = .ok st ∧ exportMesh st = .ok m ∧ IsMeshOf pts names elts m := by
  have hsupB : ∀ e ∈ bordersOf elts, e.Supported := fun e he => hsup e (List.mem_of_mem_filter he)
  have hsupC : ∀ e ∈ cellsOf elts, e.Supported := fun e he => hsup e (List.mem_of_mem_filter he)
  have tag1 : ∀ e ∈ bordersOf elts, e.tags[1]? = some (entOf e) := fun e he => ent_tag (hb.tags e he)
  have hfam := families_fold hf0 hf1 hb.tags hb.entity hb.named (firstUse ((bordersOf elts).map entOf))
    (fun g hg => mem_firstUse.1 hg) []
  -- boundary of an element, by its entity
  have hname : ∀ name, name ≠ "int_fluid" → ∀ e ∈ bordersOf elts,
      (entityName names (bordersOf elts) (entOf e) = some name ↔ boundaryOf names e = some name) := by
    intro name hni e heb
    unfold entityName boundaryOf
    cases names with
    | none => rfl
    | some l =>
      simp only
      have hfind : ∃ e' ∈ bordersOf elts, (bordersOf elts).find? (fun x => decide (entOf x = entOf e)) = some e' ∧
          entOf e' = entOf e := by
        cases hc' : (bordersOf elts).find? (fun x => decide (entOf x = entOf e)) with
        | none =>
          rw [List.find?_eq_none] at hc'
          exact (hc' e heb (by simp)).elim
        | some e' => exact ⟨e', List.mem_of_find?_eq_some hc', rfl, by simpa using List.find?_some hc'⟩
      obtain ⟨e', he'b, hfe, hee⟩ := hfind
      rw [hfe]
      have h0 : e'.tags[0]? = e.tags[0]? := hb.entity e' he'b e heb (by rw [tag1 e' he'b, tag1 e heb, hee])
      have hdim : e'.dim = e.dim := by
        have h1 := (List.mem_filter.1 he'b).2
        have h2 := (List.mem_filter.1 heb).2
        simp only [decide_eq_true_eq] at h1 h2
        omega
      have hff : familyOf l e' = familyOf l e := by unfold familyOf; rw [h0, hdim]
      rw [Option.bind_some, hff]
      cases familyOf l e with
      | none => simp
      | some f =>
        simp only [Option.filter]
        by_cases h1 : f = "fluid"
        · subst h1; simp
        · by_cases h2 : f = "int_fluid"
          · subst h2; simp; exact fun h => hni h.symm
          · simp [h1, h2]
  have hint : ∀ e, boundaryOf names e ≠ some "int_fluid" := by
    intro e
    unfold boundaryOf
    cases names with
    | none => simp
    | some l =>
      simp only
      cases familyOf l e with
      | none => simp
      | some f =>
        simp only [Option.filter]
        by_cases h2 : f = "int_fluid"
        · subst h2; simp
        · split
          · simpa using h2
          · simp
  obtain ⟨st, m, h1, h2, h3⟩ := mesh_of_parts hx hy hz hel (fun e he => supported_known (hsup e he)) htop (sameWidth_of hsupC)
    (fun e he => by have := hb.tags e he; rw [List.length_append]; omega)
    (fun g => sameWidth_of fun e he => hsupB e (List.mem_of_mem_filter he)) _ _ hfam hname hint
  exact ⟨st, m, h1, h2, h3.nnode, h3.coords, h3.ncell, h3.cells, h3.marks⟩

end Cfd.Gmsh
