import Verif.Lemmas.GmshV4

/-! C41, C42, C43, C59: the Gmsh reader. -/

namespace Cfd
open Spec Spec.Gmsh Gmsh

variable {R : Type} {num : PyNum R}

/-! ## Words -/

private theorem pySpace_iff (c : Char) : pySpace c = true ↔ Blank c := by
  unfold pySpace Blank
  simp only [Bool.or_eq_true, Bool.and_eq_true, decide_eq_true_eq, List.mem_cons, List.not_mem_nil, or_false]
  omega

private theorem split_blank (s : List Char) (h : ∀ c ∈ s, Blank c) (rest : List Char) :
    splitFrom [] (s ++ rest) = splitFrom [] rest := by
  induction s with
  | nil => rfl
  | cons c t ih =>
    rw [List.cons_append, splitFrom, if_pos ((pySpace_iff c).2 (h c List.mem_cons_self)), if_pos rfl, List.nil_append,
      ih fun x hx => h x (List.mem_cons_of_mem _ hx)]

private theorem split_word (cur w rest : List Char) (hne : cur ++ w ≠ []) (hw : ∀ c ∈ w, ¬ Blank c)
    (hr : ∀ c t, rest = c :: t → Blank c) :
    splitFrom cur (w ++ rest) = String.ofList (cur ++ w) :: splitFrom [] rest := by
  induction w generalizing cur with
  | nil =>
    rw [List.append_nil] at hne
    rw [List.nil_append, List.append_nil]
    cases rest with
    | nil => simp [splitFrom, hne]
    | cons c t =>
      have hc := (pySpace_iff c).2 (hr c t rfl)
      simp [splitFrom, hc, hne]
  | cons c t ih =>
    rw [List.cons_append, splitFrom, if_neg (mt (pySpace_iff c).1 (hw c List.mem_cons_self)),
      ih (cur ++ [c]) (by simp) fun x hx => hw x (List.mem_cons_of_mem _ hx)]
    simp

/-- C42: the words of a line are found whatever the white space between them. -/
theorem C42_words {text : String} {words : List String} (h : Spells text.toList words) : pySplit text = words := by
  unfold pySplit
  generalize text.toList = chars at h
  induction h with
  | blank s h =>
    have := split_blank s h []
    rw [List.append_nil] at this
    rw [this]; rfl
  | word s w rest ws hs hw hw' hr h ih =>
    rw [List.append_assoc, split_blank s hs, split_word [] w rest (by simpa using hw) hw' hr, ih]
    rfl

/-- C42: so a file can be given by the words of its lines. -/
theorem C42_text (text : List String) (msh : Lines) (h : List.Forall₂ (fun t ws => Spells t.toList ws) text msh) :
    readFile num text = Gmsh.read num msh := by
  unfold readFile
  congr 1
  induction h with
  | nil => rfl
  | cons h1 _ ih => rw [List.map_cons, C42_words h1, ih]

/-- Words separated by a no-break space. -/
example : Spells "\t5\u00a0a".toList ["5", "a"] :=
  .word ['\t'] ['5'] ['\u00a0', 'a'] ["a"] (by simp [Blank]) (by decide) (by simp [Blank]) (by simp [Blank])
    (.word ['\u00a0'] ['a'] [] [] (by simp [Blank]) (by decide) (by simp [Blank]) (by simp) (.blank [] (by simp)))
example : pySplit "\t5\u00a0a" = ["5", "a"] := by decide +kernel
example : pySplit "  1 2\t\"wall\"  " = ["1", "2", "\"wall\""] := by decide +kernel

private theorem spells_example : Spells "\t5\u00a0a".toList ["5", "a"] :=
  .word ['\t'] ['5'] ['\u00a0', 'a'] ["a"] (by simp [Blank]) (by decide) (by simp [Blank]) (by simp [Blank])
    (.word ['\u00a0'] ['a'] [] [] (by simp [Blank]) (by decide) (by simp [Blank]) (by simp) (.blank [] (by simp)))
example := C42_words spells_example
example := C42_text (num := num) ["\t5\u00a0a"] [["5", "a"]] (.cons spells_example .nil)

/-- The line made of these words with a space between them. -/
def joined (ws : List String) : String := String.ofList (List.intercalate [' '] (ws.map String.toList))

/-- A word that can be read back. -/
def IsWord (w : String) : Bool := w.toList ≠ [] && w.toList.all fun c => !pySpace c

theorem spells_space {x : List Char} {ws : List String} (h : Spells x ws) : Spells (' ' :: x) ws := by
  have hb : Blank ' ' := by simp [Blank]
  cases h with
  | blank _ h => exact .blank (' ' :: x) (by simpa [hb] using h)
  | word s w rest ws hs hw hw' hr h => exact .word (' ' :: s) w rest ws (by simpa [hb] using hs) hw hw' hr h

theorem spells_joined (ws : List String) (h : ∀ w ∈ ws, IsWord w = true) : Spells (joined ws).toList ws := by
  unfold joined
  rw [String.toList_ofList]
  have hw : ∀ w ∈ ws, w.toList ≠ [] ∧ ∀ c ∈ w.toList, ¬ Blank c := by
    intro w hw
    have := h w hw
    simp only [IsWord, Bool.and_eq_true, decide_eq_true_eq, List.all_eq_true, Bool.not_eq_true'] at this
    exact ⟨this.1, fun c hc hb => absurd (this.2 c hc) (by simp [(pySpace_iff c).2 hb])⟩
  clear h
  induction ws with
  | nil => exact .blank [] (by simp)
  | cons w t ih =>
    have h1 := hw w (by simp)
    have h2 := ih fun w' hw' => hw w' (List.mem_cons_of_mem _ hw')
    cases t with
    | nil =>
      have := Spells.word [] w.toList [] [] (by simp) h1.1 h1.2 (by simp) (.blank [] (by simp))
      simpa [List.intercalate] using this
    | cons w' t' =>
      have := Spells.word [] w.toList _ _ (by simp) h1.1 h1.2 (by
        intro c u e
        simp only [List.cons.injEq] at e
        rw [← e.1]
        simp [Blank]) (spells_space h2)
      simpa [List.intercalate] using this

/-! ## Nodes of the format 4.1 -/

private theorem nodes_read {msh : Lines} {blocks : List (NodeBlock R)} {n : Nat}
    (h : HasNodes4 num msh blocks 1 n) (hn : ((blocks.flatMap (·.nodes)).map (·.1)).Perm (pyRange 1 ((n : Int) + 1))) :
    readNodesV4 num msh = .ok (fill (List.replicate n none) ((readBlocks n 0 blocks).flatMap (·.nodes))) ∧
      (blocks.flatMap (·.nodes)).length = n ∧ ((blocks.flatMap (·.nodes)).map (·.1)).Nodup ∧
      ∀ q ∈ blocks.flatMap (·.nodes), 1 ≤ q.1 ∧ q.1 ≤ (n : Int) := by
  have hlen : (blocks.flatMap (·.nodes)).length = n := by
    have := hn.length_eq
    rw [List.length_map, length_pyRange] at this
    omega
  have hr : ∀ q ∈ blocks.flatMap (·.nodes), 1 ≤ q.1 ∧ q.1 ≤ (n : Int) := by
    intro q hq
    have := mem_pyRange.1 (hn.mem_iff.1 (List.mem_map_of_mem hq))
    omega
  refine ⟨?_, hlen, hn.nodup_iff.2 (nodup_pyRange _ _), hr⟩
  obtain ⟨head, parts, hs, hh, hp⟩ := h
  unfold readNodesV4
  rw [getSection_ok hs, Except_bind_ok, intAt_ok (i := 0) (j := 3) (a := 0) (b := 3) rfl rfl rfl hh rfl, Except_bind_ok]
  have := nodeLoop_ok blocks parts hp [head] (head :: parts.flatten) rfl 0 (by omega) (List.replicate n none)
    (by simp) hr
  exact this

/-- C41: whatever the blocks and the order of the numbers 1..n, each node gets its coordinates, when the last
block with nodes has at least two of them. -/
theorem C41_nodes {msh : Lines} {blocks : List (NodeBlock R)} {n : Nat} (h : HasNodes4 num msh blocks 1 n)
    (hn : ((blocks.flatMap (·.nodes)).map (·.1)).Perm (pyRange 1 ((n : Int) + 1)))
    (hlast : ∀ init b rest, blocks = init ++ b :: rest → rest.flatMap (·.nodes) = [] → b.nodes.length ≠ 1) :
    ∃ p, readNodesV4 num msh = .ok p ∧ p.length = n ∧
      ∀ q ∈ blocks.flatMap (·.nodes), p[(q.1 - 1).toNat]? = some (some q.2) := by
  obtain ⟨hread, hlen, hnd, hr⟩ := nodes_read h hn
  obtain ⟨rest, hsplit, hrest⟩ := readBlocks_spec (n := n) blocks 0 (by omega)
  have hall : (readBlocks n 0 blocks).flatMap (·.nodes) = blocks.flatMap (·.nodes) := by
    rcases hrest with h0 | ⟨q, hq⟩
    · conv_rhs => rw [hsplit, List.flatMap_append, h0, List.append_nil]
    · -- the last block with nodes would have one node
      exfalso
      obtain ⟨i1, b, i2, hr', hb, hi2⟩ : ∃ i1 b i2, rest = i1 ++ b :: i2 ∧ b.nodes = [q] ∧ i2.flatMap (·.nodes) = [] := by
        clear hsplit
        induction rest with
        | nil => simp at hq
        | cons b t ih =>
          rw [List.flatMap_cons] at hq
          cases hbn : b.nodes with
          | nil =>
            rw [hbn, List.nil_append] at hq
            obtain ⟨i1, b', i2, e, hb', hi2⟩ := ih hq
            exact ⟨b :: i1, b', i2, by rw [e]; rfl, hb', hi2⟩
          | cons x xs =>
            rw [hbn] at hq
            simp only [List.cons_append, List.cons.injEq, List.append_eq_nil_iff] at hq
            obtain ⟨rfl, rfl, h2⟩ := hq
            exact ⟨[], b, t, rfl, hbn, h2⟩
      exact hlast (readBlocks n 0 blocks ++ i1) b i2 (by rw [List.append_assoc, ← hr', ← hsplit]) hi2 (by rw [hb]; rfl)
  rw [hall] at hread
  refine ⟨_, hread, by rw [fill_length]; simp, ?_⟩
  exact (fill_get hnd (by intro q hq; simpa using hr q hq)).1

/-- C41 fails otherwise: when the last block with nodes has a single one, this node has no coordinates (`None`)
and the reader does not tell. -/
theorem C41_last_node_refuted {msh : Lines} {init rest : List (NodeBlock R)} {b : NodeBlock R} {t : Int} {c : R × R × R}
    {n : Nat} (h : HasNodes4 num msh (init ++ b :: rest) 1 n)
    (hn : (((init ++ b :: rest).flatMap (·.nodes)).map (·.1)).Perm (pyRange 1 ((n : Int) + 1)))
    (hb : b.nodes = [(t, c)]) (hrest : rest.flatMap (·.nodes) = []) :
    ∃ p, readNodesV4 num msh = .ok p ∧ p.length = n ∧ p[(t - 1).toNat]? = some none ∧
      ∀ q ∈ init.flatMap (·.nodes), p[(q.1 - 1).toNat]? = some (some q.2) := by
  obtain ⟨hread, hlen, hnd, hr⟩ := nodes_read h hn
  have hlen' : (init.flatMap (·.nodes)).length + 1 = n := by
    rw [← hlen, List.flatMap_append, List.flatMap_cons, hb, hrest]; simp
  have hrb : ∀ (bs : List (NodeBlock R)) (m : Nat), m + (bs.flatMap (·.nodes)).length + 1 = n →
      (readBlocks n m (bs ++ b :: rest)).flatMap (·.nodes) = bs.flatMap (·.nodes) := by
    intro bs
    induction bs with
    | nil =>
      intro m hm
      simp only [List.flatMap_nil, List.length_nil] at hm
      rw [List.nil_append, readBlocks, if_neg (by omega)]
    | cons a t ih =>
      intro m hm
      rw [List.flatMap_cons, List.length_append] at hm
      rw [List.cons_append, readBlocks]
      by_cases hlt : 1 + m < n
      · rw [if_pos hlt, List.flatMap_cons, List.flatMap_cons, ih _ (by omega)]
      · rw [if_neg hlt, List.flatMap_cons]
        have h1 : a.nodes = [] := List.length_eq_zero_iff.1 (by omega)
        have h2 : t.flatMap (·.nodes) = [] := List.length_eq_zero_iff.1 (by omega)
        rw [h1, h2]; rfl
  rw [hrb init 0 (by omega)] at hread
  have hsub : (init.flatMap (·.nodes)).map (·.1) ++ [t] = ((init ++ b :: rest).flatMap (·.nodes)).map (·.1) := by
    rw [List.flatMap_append, List.flatMap_cons, hb, hrest]; simp
  have hnd' : ((init.flatMap (·.nodes)).map (·.1)).Nodup ∧ t ∉ (init.flatMap (·.nodes)).map (·.1) := by
    rw [← hsub, List.nodup_append] at hnd
    exact ⟨hnd.1, fun hm => hnd.2.2 t hm t (by simp) rfl⟩
  have ht := hr (t, c) (by rw [List.flatMap_append, List.flatMap_cons, hb]; simp)
  simp only at ht
  obtain ⟨g1, g2⟩ := fill_get (p := List.replicate n (none : Option (R × R × R))) hnd'.1 (by
    intro q hq
    have := hr q (by rw [List.flatMap_append]; exact List.mem_append_left _ hq)
    simpa using this)
  refine ⟨_, hread, by rw [fill_length]; simp, ?_, g1⟩
  rw [g2 t ht.1 hnd'.2, List.getElem?_replicate, if_pos (by omega)]

/-! ## Elements, cells and boundaries -/

/-- C43: from what the sections give, the cells are the elements of highest dimension and the boundaries are the
groups of the elements of one dimension less. -/
theorem C43_mesh {s : Sections R} {pts : List (Option (R × R × R))} {names : Option (List PhysName)} {elts : List Elt}
    (hx : s.x = pts.map (Option.map fun q => q.1)) (hy : s.y = pts.map (Option.map fun q => q.2.1))
    (hz : s.z = pts.map (Option.map fun q => q.2.2)) (hel : s.elts = elts.map Elt.line)
    (hf0 : names = none → s.fam = none)
    (hf1 : ∀ l, names = some l → ∃ d, s.fam = some d ∧ ∀ p ∈ l, d.get? (toString p.tag) = some p.name)
    (hsup : ∀ e ∈ elts, e.Supported) (htop : 2 ≤ topDim elts) (hb : BordersOk names elts) :
    ∃ st m, analyze s = .ok st ∧ exportMesh st = .ok m ∧ IsMeshOf pts names elts m :=
  mesh_ok hx hy hz hel hf0 hf1 hsup htop hb

/-- C43: a file with no element of dimension 2 or 3 is refused. -/
theorem C43_low_dimension {s : Sections R} {elts : List Elt} (hel : s.elts = elts.map Elt.line)
    (hsup : ∀ e ∈ elts, e.Supported) (htop : topDim elts < 2) : ∃ e, analyze s = .error e := by
  by_cases hne : elts = []
  · subst hne
    exact ⟨.value, by unfold analyze; rw [hel]; rfl⟩
  · refine ⟨.runtime, ?_⟩
    unfold analyze
    rw [hel, maxDim_ok (fun e he => supported_known (hsup e he)) hne, Except_bind_ok, if_pos htop]

private theorem fam_ok {names : Option (List PhysName)} {dims : List String}
    (hd : ∀ l, names = some l → dims.length = l.length) (hn : DistinctGroups names) :
    (names = none → (names.map fun l => (nameDicts l dims).1) = none) ∧
    ∀ l, names = some l → ∃ d, (names.map fun l => (nameDicts l dims).1) = some d ∧
      ∀ p ∈ l, d.get? (toString p.tag) = some p.name := by
  refine ⟨fun h => by rw [h]; rfl, ?_⟩
  rintro l rfl
  exact ⟨_, rfl, fun p hp => nameDicts_get (hd l rfl) (hn l rfl) hp⟩

/-- C42: the sections of a 2.2 file: every element line in file order, the coordinates line by line, the name of
every physical group. -/
theorem C42_sections {msh : Lines} {names : Option (List PhysName)} {nodes : List (Int × R × R × R)} {elts : List Elt}
    (h : IsMsh2 num msh names nodes elts) (hg : DistinctGroups names) :
    ∃ s, readSections num msh = .ok s ∧ s.elts = elts.map Elt.line ∧ s.x = nodes.map (fun p => some p.2.1) ∧
      s.y = nodes.map (fun p => some p.2.2.1) ∧ s.z = nodes.map (fun p => some p.2.2.2) ∧
      (names = none → s.fam = none) ∧
      ∀ l, names = some l → ∃ d, s.fam = some d ∧ ∀ p ∈ l, d.get? (toString p.tag) = some p.name := by
  obtain ⟨dims, hread, hd⟩ := readV2_ok h
  obtain ⟨v, hv, hf⟩ := h.format
  obtain ⟨f0, f1⟩ := fam_ok hd hg
  refine ⟨_, by rw [readSections_ok hf, if_pos hv]; exact hread, rfl, ?_, ?_, ?_, f0, f1⟩ <;>
  · simp [sectionsOf, List.map_map, Function.comp_def]

/-- C42, C43: the mesh of a 2.2 file whose nodes are numbered 1, 2, ... in this order. -/
theorem C42_mesh {msh : Lines} {names : Option (List PhysName)} {nodes : List (Int × R × R × R)} {elts : List Elt}
    (h : IsMsh2 num msh names nodes elts) (hg : DistinctGroups names) (hsup : ∀ e ∈ elts, e.Supported)
    (htop : 2 ≤ topDim elts) (hb : BordersOk names elts)
    (hnum : nodes.map (·.1) = pyRange 1 ((nodes.length : Int) + 1)) :
    ∃ m pts, Gmsh.read num msh = .ok m ∧ IsMeshOf pts names elts m ∧ pts.length = nodes.length ∧
      ∀ q ∈ nodes, pts[(q.1 - 1).toNat]? = some (some q.2) := by
  obtain ⟨s, hs, h1, h2, h3, h4, h5, h6⟩ := C42_sections h hg
  obtain ⟨st, m, ha, he, hm⟩ := mesh_ok (pts := nodes.map fun p => some p.2) (by rw [h2]; simp) (by rw [h3]; simp)
    (by rw [h4]; simp) h1 h5 h6 hsup htop hb
  refine ⟨m, nodes.map fun p => some p.2, ?_, hm, by simp, ?_⟩
  · unfold Gmsh.read
    rw [hs, Except_bind_ok, ha, Except_bind_ok, he]
  · intro q hq
    obtain ⟨k, hk, rfl⟩ := List.getElem_of_mem hq
    have hk' : (nodes.map (·.1))[k]'(by simpa using hk) = 1 + (k : Int) := by
      simp only [hnum]
      exact getElem_pyRange _ _ _ _
    rw [List.getElem_map] at hk'
    rw [hk', show (1 + (k : Int) - 1).toNat = k by omega, List.getElem?_map, List.getElem?_eq_getElem hk]
    rfl

/-! ## Format 4.1 -/

/-- C59: the mesh of a volume file in format 4.1: boundaries are the first physical groups of the surfaces, when no
surface of the boundary has the number of the last curve. -/
theorem C59_mesh {msh : Lines} {v : Int} {names : Option (List PhysName)} {nblocks : List (NodeBlock R)} {n npoint : Nat}
    {curves surfaces volumes : List Entity} {blocks : List EltBlock} (hv : 4 ≤ v) (hf : IsFormat num msh v)
    (hnames : HasNames num msh names) (hg : DistinctGroups names)
    (hnodes : HasNodes4 num msh nblocks 1 n)
    (hn : ((nblocks.flatMap (·.nodes)).map (·.1)).Perm (pyRange 1 ((n : Int) + 1)))
    (hlast : ∀ init b rest, nblocks = init ++ b :: rest → rest.flatMap (·.nodes) = [] → b.nodes.length ≠ 1)
    (hent : HasEntities num msh npoint curves surfaces volumes) (hcurves : curves ≠ [])
    (helts : HasElts4 num msh blocks)
    (hsup : ∀ e ∈ eltsOf curves surfaces volumes blocks, e.Supported)
    (htop : topDim (eltsOf curves surfaces volumes blocks) = 3)
    (hdim : ∀ b ∈ blocks, ∀ e ∈ eltsOf curves surfaces volumes [b], (e.dim : Int) = b.dim)
    (hgroup : ∀ l, names = some l → ∀ b ∈ blocks, b.dim = 2 → (∀ c, curves.getLast? = some c → c.tag ≠ b.ent) ∧
      ∃ g, groupOf curves surfaces volumes 2 b.ent = some g ∧ ∃ p ∈ l, p.dim = 2 ∧ p.tag = g) :
    ∃ m pts, Gmsh.read num msh = .ok m ∧ IsMeshOf pts names (eltsOf curves surfaces volumes blocks) m ∧ pts.length = n ∧
      ∀ q ∈ nblocks.flatMap (·.nodes), pts[(q.1 - 1).toNat]? = some (some q.2) := by
  obtain ⟨pts, hp, hpl, hpq⟩ := C41_nodes hnodes hn hlast
  obtain ⟨dims, hnm, hdims⟩ := readNames_ok hnames
  obtain ⟨f0, f1⟩ := fam_ok hdims hg
  have hel := readEltsV4_ok (findEnt_ok hent hcurves) helts
  -- both lists of elements, from the same pairs
  let L : List (EltBlock × Int × List Int) := blocks.flatMap fun b => b.elts.map fun p => (b, p)
  let u : EltBlock × Int × List Int → Elt := fun x =>
    ⟨x.2.1, x.1.type, [foundGroup curves surfaces x.1.ent, x.1.ent], x.2.2⟩
  let u' : EltBlock × Int × List Int → Elt := fun x =>
    ⟨x.2.1, x.1.type, [(groupOf curves surfaces volumes x.1.dim x.1.ent).getD 0, x.1.ent], x.2.2⟩
  have hLu : eltsRead (foundGroup curves surfaces) blocks = L.map u := by
    simp only [eltsRead, L, u, List.map_flatMap, List.map_map, Function.comp_def]
  have hLu' : eltsOf curves surfaces volumes blocks = L.map u' := by
    simp only [eltsOf, L, u', List.map_flatMap, List.map_map, Function.comp_def]
  have hLmem : ∀ x ∈ L, x.1 ∈ blocks ∧ x.2 ∈ x.1.elts := by
    intro x hx
    simp only [L, List.mem_flatMap, List.mem_map] at hx
    obtain ⟨b, hb, p, hp, rfl⟩ := hx
    exact ⟨hb, hp⟩
  have hxdim : ∀ x ∈ L, ((u x).dim : Int) = x.1.dim := by
    intro x hx
    obtain ⟨h1, h2⟩ := hLmem x hx
    have := hdim x.1 h1 (u' x) (by
      simp only [eltsOf, List.flatMap_cons, List.flatMap_nil, List.append_nil, List.mem_map]
      exact ⟨x.2, h2, rfl⟩)
    exact this
  have htopu : topDim (L.map u) = 3 := by
    rw [← htop, hLu']
    unfold topDim
    generalize L = M
    induction M with
    | nil => rfl
    | cons x t ih => simp only [List.map_cons, List.foldr_cons]; rw [ih]; rfl
  have hsupu : ∀ e ∈ L.map u, e.Supported := by
    intro e he
    obtain ⟨x, hx, rfl⟩ := List.mem_map.1 he
    exact hsup (u' x) (by rw [hLu']; exact List.mem_map_of_mem hx)
  have hbd : ∀ x ∈ L, u x ∈ bordersOf (L.map u) → x.1.dim = 2 := by
    intro x hx hm
    have h1 := (List.mem_filter.1 hm).2
    simp only [decide_eq_true_eq] at h1
    rw [htopu] at h1
    have := hxdim x hx
    omega
  -- the group found for the boundary elements
  have hfound : ∀ l, names = some l → ∀ x ∈ L, x.1.dim = 2 →
      (foundGroup curves surfaces x.1.ent = (groupOf curves surfaces volumes x.1.dim x.1.ent).getD 0) ∧
      (familyOf l (u x)).isSome := by
    intro l hl x hx hd
    obtain ⟨hlc, g, hgr, p, hpl, hpd, hpt⟩ := hgroup l hl x.1 (hLmem x hx).1 hd
    have hfg : foundGroup curves surfaces x.1.ent = g := by
      unfold foundGroup
      have : ((curves.getLast?).toList ++ surfaces).find? (fun e => decide (e.tag = x.1.ent)) =
          surfaces.find? fun e => decide (e.tag = x.1.ent) := by
        rw [List.find?_append]
        cases hgl : curves.getLast? with
        | none => rfl
        | some c =>
          have := hlc c hgl
          simp [this]
      rw [this]
      unfold groupOf at hgr
      rw [if_neg (by omega), if_pos rfl] at hgr
      cases hfi : surfaces.find? (fun e => decide (e.tag = x.1.ent)) with
      | none => rw [hfi] at hgr; cases hgr
      | some e =>
        rw [hfi, Option.bind_some] at hgr
        simp only [ninth, hgr, Option.getD_some]
    refine ⟨by rw [hfg, hd, hgr]; rfl, ?_⟩
    unfold familyOf
    rw [Option.isSome_map, List.find?_isSome]
    refine ⟨p, hpl, ?_⟩
    have := hxdim x hx
    simp only [decide_eq_true_eq]
    refine ⟨by omega, ?_⟩
    simp only [u, List.getElem?_cons_zero, Option.some.injEq]
    rw [hfg, hpt]
  have hb : BordersOk names (L.map u) := by
    refine ⟨?_, ?_, ?_⟩
    · intro e he
      obtain ⟨x, hx, rfl⟩ := List.mem_map.1 (List.mem_of_mem_filter he)
      exact Nat.le_refl _
    · intro e he e' he' h1
      obtain ⟨x, hx, rfl⟩ := List.mem_map.1 (List.mem_of_mem_filter he)
      obtain ⟨x', hx', rfl⟩ := List.mem_map.1 (List.mem_of_mem_filter he')
      simp only [u, List.getElem?_cons_succ, List.getElem?_cons_zero, Option.some.injEq] at h1 ⊢
      rw [h1]
    · intro l hl e he
      obtain ⟨x, hx, rfl⟩ := List.mem_map.1 (List.mem_of_mem_filter he)
      exact (hfound l hl x hx (hbd x hx he)).2
  have hs : readSections num msh = .ok (sectionsOf pts names dims (L.map u)) := by
    rw [readSections_ok hf, if_neg (by omega), if_pos hv]
    unfold readV4
    rw [hnm, Except_bind_ok, hp, Except_bind_ok, hel, Except_bind_ok, hLu]
    unfold sectionsOf
    simp only [Except_pure, Option.map_map]
    rfl
  obtain ⟨st, m, ha, he, hm⟩ := mesh_ok (s := sectionsOf pts names dims (L.map u)) (pts := pts) rfl rfl rfl rfl f0 f1
    hsupu (by omega) hb
  refine ⟨m, pts, ?_, ?_, hpl, hpq⟩
  · unfold Gmsh.read
    rw [hs, Except_bind_ok, ha, Except_bind_ok, he]
  · rw [hLu']
    refine isMeshOf_congr L u u' (fun _ _ => rfl) (fun _ _ => rfl) ?_ hm
    intro x hx hmem
    cases hnames' : names with
    | none => rfl
    | some l =>
      have := (hfound l hnames' x hx (hbd x hx hmem)).1
      have e : u x = u' x := by simp only [u, u', this]
      rw [e]

/-! ## Concrete files -/

/-- Decimal digits as a number. -/
def digits (s : String) : Py Int :=
  if s.toList ≠ [] ∧ s.toList.all Char.isDigit then
    .ok (s.toList.foldl (fun (n : Int) c => n * 10 + ((c.toNat : Int) - 48)) 0)
  else .error .value

/-- Natural numbers, as `int` and as `float`. -/
def intNum : PyNum Int := ⟨digits, digits, fun n => .ok n⟩

/-- A tetrahedron with two named faces, format 2. -/
def tetraMsh2 : Lines :=
  [["$MeshFormat"], ["2", "0", "8"], ["$EndMeshFormat"],
   ["$PhysicalNames"], ["3"], ["2", "1", "\"wall\""], ["2", "2", "\"inlet\""], ["3", "3", "\"fluid\""],
   ["$EndPhysicalNames"],
   ["$Nodes"], ["4"], ["1", "0", "0", "0"], ["2", "5", "0", "0"], ["3", "0", "6", "0"], ["4", "0", "0", "7"], ["$EndNodes"],
   ["$Elements"], ["4"], ["1", "2", "2", "1", "11", "1", "2", "3"], ["2", "2", "2", "1", "12", "1", "2", "4"],
   ["3", "2", "2", "2", "13", "2", "3", "4"], ["4", "4", "2", "3", "1", "1", "2", "3", "4"], ["$EndElements"]]

def tetraNames : List PhysName := [⟨2, 1, "wall"⟩, ⟨2, 2, "inlet"⟩, ⟨3, 3, "fluid"⟩]
def tetraNodes : List (Int × Int × Int × Int) := [(1, 0, 0, 0), (2, 5, 0, 0), (3, 0, 6, 0), (4, 0, 0, 7)]
def tetraElts : List Elt :=
  [⟨1, 2, [1, 11], [1, 2, 3]⟩, ⟨2, 2, [1, 12], [1, 2, 4]⟩, ⟨3, 2, [2, 13], [2, 3, 4]⟩, ⟨4, 4, [3, 1], [1, 2, 3, 4]⟩]

/-- Sections of the form of `HasSection`, by position. -/
private theorem section_at (msh : Lines) (name : String) (i j : Nat)
    (h : msh = msh.take i ++ [["$" ++ name]] ++ (msh.take j).drop (i + 1) ++ [["$End" ++ name]] ++ msh.drop (j + 1))
    (h1 : ["$" ++ name] ∉ msh.take i) (h2 : ["$End" ++ name] ∉ msh.take i)
    (h3 : ["$End" ++ name] ∉ (msh.take j).drop (i + 1)) : HasSection msh name ((msh.take j).drop (i + 1)) :=
  ⟨_, _, h, h1, h2, h3⟩

theorem tetra_file : IsMsh2 intNum tetraMsh2 (some tetraNames) tetraNodes tetraElts := by
  refine ⟨⟨2, by decide, "2", "0", "8", 2, [], [], ?_, by decide +kernel, rfl, by decide +kernel, by decide +kernel⟩,
    ⟨["3"], [["2", "1", "\"wall\""], ["2", "2", "\"inlet\""], ["3", "3", "\"fluid\""]], ?_, ?_, ?_⟩,
    ⟨["4"], [["1", "0", "0", "0"], ["2", "5", "0", "0"], ["3", "0", "6", "0"], ["4", "0", "0", "7"]], ?_, ?_, ?_⟩,
    ⟨["4"], [["1", "2", "2", "1", "11", "1", "2", "3"], ["2", "2", "2", "1", "12", "1", "2", "4"],
      ["3", "2", "2", "2", "13", "2", "3", "4"], ["4", "4", "2", "3", "1", "1", "2", "3", "4"]], ?_, ?_, ?_⟩⟩
  · exact section_at tetraMsh2 "MeshFormat" 0 2 (by decide +kernel) (by decide +kernel) (by decide +kernel) (by decide +kernel)
  · exact section_at tetraMsh2 "PhysicalNames" 3 8 (by decide +kernel) (by decide +kernel) (by decide +kernel) (by decide +kernel)
  · repeat (first | exact .nil | refine .cons (by decide +kernel) ?_)
  · refine .cons ⟨"2", by decide +kernel, by decide +kernel⟩ (.cons ⟨"2", by decide +kernel, by decide +kernel⟩
      (.cons ⟨"3", by decide +kernel, by decide +kernel⟩ .nil))
  · exact section_at tetraMsh2 "Nodes" 9 15 (by decide +kernel) (by decide +kernel) (by decide +kernel) (by decide +kernel)
  · repeat (first | exact .nil | refine .cons (by decide +kernel) ?_)
  · repeat (first | exact .nil | refine .cons ⟨_, _, rfl, by decide +kernel,
      .cons (by decide +kernel) (.cons (by decide +kernel) (.cons (by decide +kernel) .nil))⟩ ?_)
  · exact section_at tetraMsh2 "Elements" 16 22 (by decide +kernel) (by decide +kernel) (by decide +kernel) (by decide +kernel)
  · repeat (first | exact .nil | refine .cons (by decide +kernel) ?_)
  · repeat (first | exact .nil | refine .cons (by repeat (first | exact .nil | refine .cons (by decide +kernel) ?_)) ?_)

theorem tetra_meets : DistinctGroups (some tetraNames) ∧ (∀ e ∈ tetraElts, e.Supported) ∧ topDim tetraElts = 3 ∧
    BordersOk (some tetraNames) tetraElts ∧ tetraNodes.map (·.1) = pyRange 1 ((tetraNodes.length : Int) + 1) := by
  refine ⟨?_, ?_, by decide, ⟨by decide, by decide, ?_⟩, by decide⟩
  · intro l hl; cases hl; decide
  · intro e he
    simp only [tetraElts, List.mem_cons, List.not_mem_nil, or_false] at he
    rcases he with rfl | rfl | rfl | rfl
    · exact ⟨"tri3", 2, rfl⟩
    · exact ⟨"tri3", 2, rfl⟩
    · exact ⟨"tri3", 2, rfl⟩
    · exact ⟨"tetra4", 3, rfl⟩
  · intro l hl; cases hl; decide

/-- C42 and C43 applied to this file. -/
example := C42_sections tetra_file tetra_meets.1
example := C42_mesh tetra_file tetra_meets.1 tetra_meets.2.1 (by decide) tetra_meets.2.2.2.1 tetra_meets.2.2.2.2
example := C43_mesh (s := ⟨some [("1", "wall"), ("2", "inlet"), ("3", "fluid")], none, tetraNodes.map fun p => some p.2.1,
    tetraNodes.map fun p => some p.2.2.1, tetraNodes.map fun p => some p.2.2.2, tetraElts.map Elt.line⟩)
  (pts := tetraNodes.map fun p => some p.2) rfl rfl rfl rfl (by simp)
  (by intro l hl; cases hl; exact ⟨_, rfl, by decide +kernel⟩) tetra_meets.2.1 (by decide) tetra_meets.2.2.2.1
example := C43_low_dimension (R := Int) (s := ⟨none, none, [], [], [], [(⟨1, 1, [1, 11], [1, 2]⟩ : Elt).line]⟩)
  (elts := [⟨1, 1, [1, 11], [1, 2]⟩]) rfl (by intro e he; cases List.mem_singleton.1 he; exact ⟨"bar2", 1, rfl⟩) (by decide)

/-- What is read: marks of the two boundaries, by node numbers from 0. -/
def marksRead (x : Py (Mesh (Option Int))) : Py (List (String × List Int)) :=
  x.map fun m => m.bocos.map fun p => (p.1, markItems p.2)

example : marksRead (Gmsh.read intNum tetraMsh2) = .ok [("wall", [0, 1, 2, 3]), ("inlet", [1, 2, 3])] := by decide +kernel

/-! ## What is not read as the documentation says -/

/-- The nodes of the file above in another order: numbers are not looked at. -/
def shuffledMsh2 : Lines :=
  tetraMsh2.map fun l => if l = ["1", "0", "0", "0"] then ["2", "5", "0", "0"] else
    if l = ["2", "5", "0", "0"] then ["1", "0", "0", "0"] else l

/-- C42: node numbers are ignored: in a file listing node 2 before node 1, node 1 gets the coordinates of node 2. -/
theorem C42_order_refuted :
    ["2", "5", "0", "0"] ∈ shuffledMsh2 ∧ ["1", "0", "0", "0"] ∈ shuffledMsh2 ∧
    (Gmsh.read intNum shuffledMsh2).map (fun m => m.coords.map fun c => c.1.take 2) = .ok (some [some 5, some 0]) := by
  decide +kernel

/-- C42: a physical group with a space in its name loses the end of it. -/
theorem C42_space_refuted :
    pySplit "2 1 \"wall 1\"" = ["2", "1", "\"wall", "1\""] ∧
    marksRead (Gmsh.read intNum (tetraMsh2.map fun l => if l = ["2", "1", "\"wall\""] then ["2", "1", "\"wall", "1\""] else l)) =
      .ok [("wal", [0, 1, 2, 3]), ("inlet", [1, 2, 3])] := by decide +kernel

/-- C42: when the volume group has the number of a surface group, which the format allows, the boundary gets the
name of the volume. -/
theorem C42_same_number_refuted :
    marksRead (Gmsh.read intNum (tetraMsh2.map fun l => if l = ["3", "3", "\"fluid\""] then ["3", "1", "\"volume\""] else l)) =
      .ok [("volume", [0, 1, 2, 3]), ("inlet", [1, 2, 3])] := by decide +kernel

/-- C43: elements of one entity in two groups all go to the group of the last one. -/
theorem C43_entity_refuted :
    marksRead (Gmsh.read intNum (tetraMsh2.map fun l =>
      if l = ["3", "2", "2", "2", "13", "2", "3", "4"] then ["3", "2", "2", "2", "12", "2", "3", "4"] else l)) =
      .ok [("wall", [0, 1, 2]), ("inlet", [0, 1, 2, 3])] := by decide +kernel

/-- C43: a node of several element types of one entity is listed several times in the mark (its set of nodes is
right): here a triangle and a quadrangle. -/
example : patchNodes [("tri3", ⟨some 3, [[0, 1, 2]]⟩), ("quad4", ⟨some 4, [[1, 2, 3, 4]]⟩)] = [0, 1, 2, 1, 2, 3, 4] := by
  decide

/-- A tetrahedron in the format 4.1, its faces on the surfaces 1 and 2 (group 4 and 5), one curve of number 6. -/
def tetraMsh4 : Lines :=
  [["$MeshFormat"], ["4", "0", "8"], ["$EndMeshFormat"],
   ["$PhysicalNames"], ["2"], ["2", "4", "\"wall\""], ["2", "5", "\"inlet\""], ["$EndPhysicalNames"],
   ["$Entities"], ["0", "1", "2", "1"], ["6", "0", "0", "0", "1", "1", "1", "0", "0"],
   ["1", "0", "0", "0", "1", "1", "1", "1", "4", "1", "6"], ["2", "0", "0", "0", "1", "1", "1", "1", "5", "1", "6"],
   ["1", "0", "0", "0", "1", "1", "1", "0", "2", "1", "2"], ["$EndEntities"],
   ["$Nodes"], ["2", "4", "1", "4"], ["2", "1", "0", "2"], ["3"], ["1"], ["0", "6", "0"], ["0", "0", "0"],
   ["2", "2", "0", "2"], ["2"], ["4"], ["5", "0", "0"], ["0", "0", "7"], ["$EndNodes"],
   ["$Elements"], ["3", "3", "1", "3"], ["2", "1", "2", "1"], ["1", "1", "2", "3"], ["2", "2", "2", "1"],
   ["2", "2", "3", "4"], ["3", "1", "4", "1"], ["3", "1", "2", "3", "4"], ["$EndElements"]]

set_option synthInstance.maxSize 1000 in
example : (Gmsh.read intNum tetraMsh4).map (fun m => (m.coords, m.bocos.map fun p => (p.1, markItems p.2))) =
    .ok (some ([some 0, some 5, some 0, some 0], [some 0, some 0, some 6, some 0], [some 0, some 0, some 0, some 7]),
      [("wall", [0, 1, 2]), ("inlet", [1, 2, 3])]) := by decide +kernel

def tetraBlocks4 : List (NodeBlock Int) :=
  [⟨2, 1, 0, [(3, 0, 6, 0), (1, 0, 0, 0)]⟩, ⟨2, 2, 0, [(2, 5, 0, 0), (4, 0, 0, 7)]⟩]
def tetraCurves : List Entity := [⟨6, [], []⟩]
def tetraSurfaces : List Entity := [⟨1, [4], [6]⟩, ⟨2, [5], [6]⟩]
def tetraVolumes : List Entity := [⟨1, [], [1, 2]⟩]
def tetraEltBlocks : List EltBlock :=
  [⟨2, 1, 2, [(1, [1, 2, 3])]⟩, ⟨2, 2, 2, [(2, [2, 3, 4])]⟩, ⟨3, 1, 4, [(3, [1, 2, 3, 4])]⟩]

theorem tetra4_file : IsFormat intNum tetraMsh4 4 ∧ HasNodes4 intNum tetraMsh4 tetraBlocks4 1 4 ∧
    HasEntities intNum tetraMsh4 0 tetraCurves tetraSurfaces tetraVolumes ∧ HasElts4 intNum tetraMsh4 tetraEltBlocks := by
  refine ⟨⟨"4", "0", "8", 4, [], [], ?_, by decide +kernel, rfl, by decide +kernel, by decide +kernel⟩,
    ⟨["2", "4", "1", "4"], [[["2", "1", "0", "2"], ["3"], ["1"], ["0", "6", "0"], ["0", "0", "0"]],
      [["2", "2", "0", "2"], ["2"], ["4"], ["5", "0", "0"], ["0", "0", "7"]]], ?_, ?_, ?_⟩,
    ⟨["0", "1", "2", "1"], [], [["6", "0", "0", "0", "1", "1", "1", "0", "0"]],
      [["1", "0", "0", "0", "1", "1", "1", "1", "4", "1", "6"], ["2", "0", "0", "0", "1", "1", "1", "1", "5", "1", "6"]],
      [["1", "0", "0", "0", "1", "1", "1", "0", "2", "1", "2"]], ?_, ?_, rfl, ?_, ?_, ?_⟩,
    ⟨["3", "3", "1", "3"], [[["2", "1", "2", "1"], ["1", "1", "2", "3"]], [["2", "2", "2", "1"], ["2", "2", "3", "4"]],
      [["3", "1", "4", "1"], ["3", "1", "2", "3", "4"]]], 1, 3, ?_, ?_, ?_⟩⟩
  · exact section_at tetraMsh4 "MeshFormat" 0 2 (by decide +kernel) (by decide +kernel) (by decide +kernel) (by decide +kernel)
  · exact section_at tetraMsh4 "Nodes" 15 27 (by decide +kernel) (by decide +kernel) (by decide +kernel) (by decide +kernel)
  · repeat (first | exact .nil | refine .cons (by decide +kernel) ?_)
  · refine .cons ⟨["2", "1", "0", "2"], [["3"], ["1"]], [["0", "6", "0"], ["0", "0", "0"]], rfl, ?_, ?_, ?_⟩
      (.cons ⟨["2", "2", "0", "2"], [["2"], ["4"]], [["5", "0", "0"], ["0", "0", "7"]], rfl, ?_, ?_, ?_⟩ .nil)
    all_goals first
      | ((repeat (first | exact .nil | refine .cons (by decide +kernel) ?_)); done)
      | (repeat (first | exact .nil | refine .cons (by
          repeat (first | exact .nil | refine .cons (by decide +kernel) ?_)) ?_))
  · exact section_at tetraMsh4 "Entities" 8 14 (by decide +kernel) (by decide +kernel) (by decide +kernel) (by decide +kernel)
  · repeat (first | exact .nil | refine .cons (by decide +kernel) ?_)
  · exact .cons ⟨"6", ["0", "0", "0", "1", "1", "1"], ["0", "0"], rfl, rfl, by decide +kernel,
      .cons (by decide +kernel) (.cons (by decide +kernel) .nil)⟩ .nil
  · refine .cons ⟨"1", ["0", "0", "0", "1", "1", "1"], ["1", "4", "1", "6"], rfl, rfl, by decide +kernel, ?_⟩
      (.cons ⟨"2", ["0", "0", "0", "1", "1", "1"], ["1", "5", "1", "6"], rfl, rfl, by decide +kernel, ?_⟩ .nil)
    all_goals repeat (first | exact .nil | refine .cons (by decide +kernel) ?_)
  · refine .cons ⟨"1", ["0", "0", "0", "1", "1", "1"], ["0", "2", "1", "2"], rfl, rfl, by decide +kernel, ?_⟩ .nil
    repeat (first | exact .nil | refine .cons (by decide +kernel) ?_)
  · exact section_at tetraMsh4 "Elements" 28 36 (by decide +kernel) (by decide +kernel) (by decide +kernel) (by decide +kernel)
  · repeat (first | exact .nil | refine .cons (by decide +kernel) ?_)
  · refine .cons ⟨_, _, rfl, ?_, ?_⟩ (.cons ⟨_, _, rfl, ?_, ?_⟩ (.cons ⟨_, _, rfl, ?_, ?_⟩ .nil))
    all_goals first
      | ((repeat (first | exact .nil | refine .cons (by decide +kernel) ?_)); done)
      | (repeat (first | exact .nil | refine .cons (by
          repeat (first | exact .nil | refine .cons (by decide +kernel) ?_)) ?_))

example : (∀ b ∈ tetraEltBlocks, b.dim = 2 → (∀ c ∈ tetraCurves.getLast?, c.tag ≠ b.ent) ∧
    (groupOf tetraCurves tetraSurfaces tetraVolumes 2 b.ent).isSome) ∧
    topDim (eltsOf tetraCurves tetraSurfaces tetraVolumes tetraEltBlocks) = 3 := by decide

theorem tetra4_names : HasNames intNum tetraMsh4 (some [⟨2, 4, "wall"⟩, ⟨2, 5, "inlet"⟩]) := by
  refine ⟨["2"], [["2", "4", "\"wall\""], ["2", "5", "\"inlet\""]], ?_, ?_, ?_⟩
  · exact section_at tetraMsh4 "PhysicalNames" 3 7 (by decide +kernel) (by decide +kernel) (by decide +kernel) (by decide +kernel)
  · repeat (first | exact .nil | refine .cons (by decide +kernel) ?_)
  · exact .cons ⟨"2", by decide +kernel, by decide +kernel⟩ (.cons ⟨"2", by decide +kernel, by decide +kernel⟩ .nil)

theorem tetra4_last : ∀ init b rest, tetraBlocks4 = init ++ b :: rest → rest.flatMap (·.nodes) = [] → b.nodes.length ≠ 1 := by
  intro init b rest h _
  have : b ∈ tetraBlocks4 := by rw [h]; simp
  have all : ∀ b ∈ tetraBlocks4, b.nodes.length ≠ 1 := by decide
  exact all b this

theorem tetra4_supported : ∀ e ∈ eltsOf tetraCurves tetraSurfaces tetraVolumes tetraEltBlocks, e.Supported := by
  intro e he
  have : ∀ e ∈ eltsOf tetraCurves tetraSurfaces tetraVolumes tetraEltBlocks, documented.get? e.type =
      some (if e.type = 2 then ("tri3", 2, e.nodes.length) else ("tetra4", 3, e.nodes.length)) := by decide +kernel
  have h := this e he
  by_cases ht : e.type = 2
  · exact ⟨"tri3", 2, by rw [h, if_pos ht]⟩
  · exact ⟨"tetra4", 3, by rw [h, if_neg ht]⟩

/-- C41 and C59 applied to this file. -/
example := C41_nodes tetra4_file.2.1 (by decide +kernel) tetra4_last
example := C59_mesh (by decide) tetra4_file.1 tetra4_names (by intro l hl; cases hl; decide) tetra4_file.2.1 (by decide +kernel)
  tetra4_last tetra4_file.2.2.1 (by decide) tetra4_file.2.2.2 tetra4_supported (by decide) (by decide +kernel)
  (by intro l hl; cases hl; decide +kernel)

/-- C59: when the last curve has the number of a surface, its line is read in place of the one of the surface (here
the curve has no group, and the number 0 of its bounds is taken as the group). -/
theorem C59_curve_refuted :
    Gmsh.read intNum (tetraMsh4.map fun l => if l = ["6", "0", "0", "0", "1", "1", "1", "0", "0"] then
      ["2", "0", "0", "0", "1", "1", "1", "0", "0"] else l) = .error .key := by decide +kernel

/-- C59: in a plane file boundaries are on curves, but the groups of the surfaces are read: here the curve 1 has
the group 5, named `inlet`, and the surface 1 has the group 4. -/
theorem C59_plane_refuted :
    marksRead (Gmsh.read intNum
      [["$MeshFormat"], ["4", "0", "8"], ["$EndMeshFormat"],
       ["$PhysicalNames"], ["2"], ["1", "5", "\"inlet\""], ["2", "4", "\"domain\""], ["$EndPhysicalNames"],
       ["$Entities"], ["0", "2", "1", "0"], ["1", "0", "0", "0", "1", "1", "1", "1", "5", "0"],
       ["2", "0", "0", "0", "1", "1", "1", "0", "0"],
       ["1", "0", "0", "0", "1", "1", "1", "1", "4", "2", "1", "2"], ["$EndEntities"],
       ["$Nodes"], ["1", "3", "1", "3"], ["2", "1", "0", "3"], ["1"], ["2"], ["3"], ["0", "0", "0"], ["1", "0", "0"],
       ["0", "1", "0"], ["$EndNodes"],
       ["$Elements"], ["2", "2", "1", "2"], ["1", "1", "1", "1"], ["1", "1", "2"], ["2", "1", "2", "1"],
       ["2", "1", "2", "3"], ["$EndElements"]]) = .ok [("domain", [0, 1])] := by decide +kernel

end Cfd
