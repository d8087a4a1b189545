import Verif.Lemmas.GmshRead

/-! Lemmas on the Gmsh reader: sections of both formats. -/

namespace Cfd.Gmsh
open Cfd.Spec Cfd.Spec.Gmsh Cfd.ElemConn

variable {R : Type} {num : PyNum R}

/-! ### Format 2.2 -/

theorem readV2_ok {msh : Lines} {names : Option (List PhysName)} {nodes : List (Int × R × R × R)} {elts : List Elt}
    (h : IsMsh2 num msh names nodes elts) :
    ∃ dims, readV2 num msh = .ok (sectionsOf (nodes.map fun p => some p.2) names dims elts) ∧
      ∀ l, names = some l → dims.length = l.length := by
  obtain ⟨dims, hnames, hdims⟩ := readNames_ok h.names
  obtain ⟨nh, nl, hns, hnh, hnl⟩ := h.nodes
  obtain ⟨eh, el, hes, heh, hel⟩ := h.elts
  refine ⟨dims, ?_, hdims⟩
  unfold readV2
  rw [hnames, Except_bind_ok, getSection_ok hns, Except_bind_ok,
    intAt_ok (i := 0) (j := 0) (a := 0) (b := 0) rfl rfl rfl hnh rfl, Except_bind_ok]
  have coord : ∀ (j : Nat) (f : Int × R × R × R → R),
      (∀ p : Int × R × R × R, [p.2.1, p.2.2.1, p.2.2.2][j]? = some (f p)) →
      (pyRange 1 ((nodes.length : Int) + 1)).mapM (fun i => floatAt num (nh :: nl) i ((j + 1 : Nat) : Int)) =
        .ok (nodes.map f) := by
    intro j f hf
    rw [show (nodes.length : Int) + 1 = 1 + ((nodes.map f).length : Int) by rw [List.length_map]; omega]
    apply mapM_pyRange
    intro k x hk
    rw [List.getElem?_map] at hk
    cases hp : nodes[k]? with
    | none => rw [hp] at hk; cases hk
    | some p =>
      rw [hp] at hk
      simp only [Option.map_some, Option.some.injEq] at hk
      obtain ⟨l, hl, w, xs, rfl, -, hxs⟩ := forall₂_get hnl hp
      obtain ⟨w', hw', hv⟩ := FloatLine.get hxs (hf p)
      rw [← hk]
      exact floatAt_ok (a := k + 1) (b := j + 1) (by omega) rfl (by simpa using hl) (by simpa using hw') hv
  have c1 : (pyRange 1 ((nodes.length : Int) + 1)).mapM (fun i => floatAt num (nh :: nl) i 1) =
      .ok (nodes.map fun p => p.2.1) := coord 0 (fun p => p.2.1) (fun _ => rfl)
  have c2 : (pyRange 1 ((nodes.length : Int) + 1)).mapM (fun i => floatAt num (nh :: nl) i 2) =
      .ok (nodes.map fun p => p.2.2.1) := coord 1 (fun p => p.2.2.1) (fun _ => rfl)
  have c3 : (pyRange 1 ((nodes.length : Int) + 1)).mapM (fun i => floatAt num (nh :: nl) i 3) =
      .ok (nodes.map fun p => p.2.2.2) := coord 2 (fun p => p.2.2.2) (fun _ => rfl)
  have ce : (pyRange 1 ((elts.length : Int) + 1)).mapM (intLine num (eh :: el)) = .ok (elts.map Elt.line) := by
    rw [show (elts.length : Int) + 1 = 1 + ((elts.map Elt.line).length : Int) by rw [List.length_map]; omega]
    apply mapM_pyRange
    intro k x hk
    rw [List.getElem?_map] at hk
    cases hp : elts[k]? with
    | none => rw [hp] at hk; cases hk
    | some p =>
      rw [hp] at hk
      simp only [Option.map_some, Option.some.injEq] at hk
      obtain ⟨l, hl, hll⟩ := forall₂_get hel hp
      rw [← hk]
      exact intLine_ok (a := k + 1) (by omega) (by simpa using hl) hll
  rw [c1, Except_bind_ok, c2, Except_bind_ok, c3, Except_bind_ok, getSection_ok hes, Except_bind_ok,
    intAt_ok (i := 0) (j := 0) (a := 0) (b := 0) rfl rfl rfl heh rfl, Except_bind_ok, ce, Except_bind_ok]
  unfold sectionsOf
  simp only [Except_pure, List.map_map, Option.map_map]
  rfl

theorem readSections_ok {msh : Lines} {v : Int} (h : IsFormat num msh v) :
    readSections num msh = if v ≤ 2 then readV2 num msh else if 4 ≤ v then readV4 num msh else .error .runtime := by
  obtain ⟨w, a, s, x, rest, more, hs, hw, hx, ha, hz⟩ := h
  unfold readSections
  rw [getSection_ok hs, Except_bind_ok,
    floatAt_ok (i := 0) (j := 0) (a := 0) (b := 0) (l := w :: a :: s :: rest) rfl rfl rfl rfl hw, Except_bind_ok, hx,
    Except_bind_ok]
  have ia : intAt num ((w :: a :: s :: rest) :: more) 0 1 = .ok 0 := by
    unfold intAt
    rw [word_ok (i := 0) (j := 1) (a := 0) (b := 1) (l := w :: a :: s :: rest) rfl rfl rfl rfl, Except_bind_ok, ha]
  have iz : intAt num ((w :: a :: s :: rest) :: more) 0 2 = .ok 8 := by
    unfold intAt
    rw [word_ok (i := 0) (j := 2) (a := 0) (b := 2) (l := w :: a :: s :: rest) rfl rfl rfl rfl, Except_bind_ok, hz]
  rw [ia, Except_bind_ok, iz]
  rfl

/-! ### Nodes of the format 4.1 -/

/-- Coordinates written at the places of the node numbers. -/
def fill (p : List (Option (R × R × R))) (nodes : List (Int × R × R × R)) : List (Option (R × R × R)) :=
  nodes.foldl (fun p q => p.set (q.1 - 1).toNat (some q.2)) p

/-- Blocks read before the loop stops. -/
def readBlocks (n : Nat) (m : Nat) : List (NodeBlock R) → List (NodeBlock R)
  | [] => []
  | b :: t => if 1 + m < n then b :: readBlocks n (m + b.nodes.length) t else []

theorem fill_length (p : List (Option (R × R × R))) (nodes : List (Int × R × R × R)) : (fill p nodes).length = p.length := by
  unfold fill
  induction nodes generalizing p with
  | nil => rfl
  | cons q t ih => rw [List.foldl_cons, ih, List.length_set]

theorem nodeFold_ok {coords : Lines} {pre post : Lines} {head : List String} {tags lines : Lines} {nodes : List (Int × R × R × R)}
    (hc : coords = pre ++ head :: (tags ++ lines) ++ post)
    (ht : List.Forall₂ (fun l (p : Int × R × R × R) => IntLine num l [p.1]) tags nodes)
    (hl : List.Forall₂ (fun (l : List String) (p : Int × R × R × R) =>
      FloatLine num (l.take 3) [p.2.1, p.2.2.1, p.2.2.2]) lines nodes)
    (p : List (Option (R × R × R))) (hr : ∀ q ∈ nodes, 1 ≤ q.1 ∧ q.1 ≤ p.length) :
    (pyRange ((pre.length : Int) + 1) ((pre.length : Int) + (nodes.length : Int) + 1)).foldlM
      (readNode num coords (nodes.length : Int)) p = .ok (fill p nodes) := by
  have hlt := ht.length_eq
  have hll := hl.length_eq
  -- the loop keeps the length, so it is proved on all suffixes
  have gen : ∀ (done rest : List (Int × R × R × R)), nodes = done ++ rest → ∀ p' : List (Option (R × R × R)),
      p'.length = p.length →
      (pyRange ((pre.length : Int) + 1 + (done.length : Int)) ((pre.length : Int) + (nodes.length : Int) + 1)).foldlM
        (readNode num coords (nodes.length : Int)) p' = .ok (fill p' rest) := by
    intro done rest
    induction rest generalizing done with
    | nil =>
      intro hd p' _
      rw [pyRange_eq_nil (by rw [hd]; simp; omega)]
      rfl
    | cons q t ih =>
      intro hd p' hp'
      have hk : nodes[done.length]? = some q := by rw [hd]; simp
      have hlen : nodes.length = done.length + 1 + t.length := by rw [hd]; simp; omega
      rw [pyRange_cons (by omega), List.foldlM_cons]
      have hstep : readNode num coords (nodes.length : Int) p' ((pre.length : Int) + 1 + (done.length : Int)) =
          .ok (p'.set (q.1 - 1).toNat (some q.2)) := by
        obtain ⟨lt, hlt1, hlt2⟩ := forall₂_get ht hk
        obtain ⟨lc, hlc1, hlc2⟩ := forall₂_get hl hk
        have g1 : coords[pre.length + 1 + done.length]? = some lt := by
          rw [hc, List.append_assoc, List.getElem?_append_right (by omega),
            show pre.length + 1 + done.length - pre.length = done.length + 1 by omega, List.cons_append,
            List.getElem?_cons_succ, List.append_assoc, List.getElem?_append_left (by omega)]
          exact hlt1
        have g2 : coords[pre.length + 1 + done.length + nodes.length]? = some lc := by
          rw [hc, List.append_assoc, List.getElem?_append_right (by omega),
            show pre.length + 1 + done.length + nodes.length - pre.length = done.length + nodes.length + 1 by omega,
            List.cons_append, List.getElem?_cons_succ, List.append_assoc, List.getElem?_append_right (by omega),
            show done.length + nodes.length - tags.length = done.length by omega, List.getElem?_append_left (by omega)]
          exact hlc1
        have fl : ∀ (j : Nat) (x : R), j < 3 → [q.2.1, q.2.2.1, q.2.2.2][j]? = some x →
            floatAt num coords ((pre.length : Int) + 1 + (done.length : Int) + (nodes.length : Int)) (j : Int) = .ok x := by
          intro j x hj hx
          obtain ⟨w, hw, hv⟩ := FloatLine.get hlc2 hx
          rw [List.getElem?_take_of_lt hj] at hw
          exact floatAt_ok (by omega) rfl g2 hw hv
        have f0 : floatAt num coords ((pre.length : Int) + 1 + (done.length : Int) + (nodes.length : Int)) 0 = .ok _ :=
          fl 0 q.2.1 (by omega) rfl
        have f1 : floatAt num coords ((pre.length : Int) + 1 + (done.length : Int) + (nodes.length : Int)) 1 = .ok _ :=
          fl 1 q.2.2.1 (by omega) rfl
        have f2 : floatAt num coords ((pre.length : Int) + 1 + (done.length : Int) + (nodes.length : Int)) 2 = .ok _ :=
          fl 2 q.2.2.2 (by omega) rfl
        unfold readNode
        rw [intAt_ok (i := (pre.length : Int) + 1 + (done.length : Int)) (j := 0) (b := 0) (by omega) rfl g1 hlt2 rfl,
          Except_bind_ok]
        rw [f0, Except_bind_ok, f1, Except_bind_ok, f2, Except_bind_ok]
        have hq := hr q (by rw [hd]; simp)
        exact npSet_ok _ (by omega) (by rw [hp']; omega)
      rw [hstep, Except_bind_ok]
      have := ih (done ++ [q]) (by rw [hd]; simp) (p'.set (q.1 - 1).toNat (some q.2)) (by simpa using hp')
      rw [show (pre.length : Int) + 1 + (done.length : Int) + 1 = (pre.length : Int) + 1 + ((done ++ [q]).length : Int) by
        simp; omega, this]
      rfl
  have := gen [] nodes rfl p rfl
  simpa using this

theorem nodeLoop_ok {n : Nat} (blocks : List (NodeBlock R)) (parts : List Lines)
    (hp : List.Forall₂ (IsNodeBlock num) parts blocks) (pre : Lines) (coords : Lines)
    (hc : coords = pre ++ parts.flatten) (m : Nat) (hm : m + (blocks.flatMap (·.nodes)).length = n)
    (p : List (Option (R × R × R))) (hlen : p.length = n)
    (hr : ∀ q ∈ blocks.flatMap (·.nodes), 1 ≤ q.1 ∧ q.1 ≤ (n : Int)) :
    nodeLoop num coords n (1 + (m : Int)) pre.length p =
      .ok (fill p ((readBlocks n m blocks).flatMap (·.nodes))) := by
  induction hp generalizing pre m p with
  | nil =>
    unfold nodeLoop
    simp only [List.flatMap_nil, List.length_nil, Nat.add_zero] at hm
    rw [if_neg (by omega)]
    rfl
  | @cons part b parts bs hb hbs ih =>
    unfold nodeLoop readBlocks
    by_cases hlt : 1 + m < n
    · rw [if_pos (by omega), if_pos hlt]
      obtain ⟨head, tags, lines, rfl, hhead, ht, hl⟩ := hb
      have hpos : pre.length < coords.length := by rw [hc]; simp
      rw [if_pos hpos]
      have hh : intAt num coords (pre.length : Int) 3 = .ok (b.nodes.length : Int) :=
        intAt_ok (a := pre.length) (b := 3) rfl rfl (by rw [hc]; simp) hhead rfl
      simp only [hh]
      rw [if_neg (by omega)]
      rw [List.flatMap_cons] at hr hm
      have hfold := nodeFold_ok (num := num) (coords := coords) (pre := pre) (post := parts.flatten) (head := head)
        (by rw [hc]; simp) ht hl p
        (by intro q hq; rw [hlen]; exact hr q (List.mem_append_left _ hq))
      rw [hfold]
      simp only
      have := ih (pre ++ (head :: (tags ++ lines))) (by rw [hc]; simp) (m + b.nodes.length)
        (by rw [List.length_append] at hm; omega) (fill p b.nodes) (by rw [fill_length, hlen])
        (fun q hq => hr q (List.mem_append_right _ hq))
      rw [show 1 + (m : Int) + (b.nodes.length : Int) = 1 + ((m + b.nodes.length : Nat) : Int) by omega]
      have hcnt : pre.length + 2 * ((b.nodes.length : Int)).toNat + 1 = (pre ++ (head :: (tags ++ lines))).length := by
        have h1 := ht.length_eq
        have h2 := hl.length_eq
        simp only [List.length_append, List.length_cons]
        omega
      rw [hcnt, this]
      unfold fill
      rw [List.flatMap_cons, List.foldl_append]
    · rw [if_neg (by omega), if_neg hlt]
      rfl

/-- The nodes read: all of them, except possibly one. -/
theorem readBlocks_spec {n : Nat} (blocks : List (NodeBlock R)) (m : Nat)
    (hm : m + (blocks.flatMap (·.nodes)).length = n) :
    ∃ rest, blocks = readBlocks n m blocks ++ rest ∧
      (rest.flatMap (·.nodes) = [] ∨ ∃ q, rest.flatMap (·.nodes) = [q]) := by
  induction blocks generalizing m with
  | nil => exact ⟨[], rfl, .inl rfl⟩
  | cons b t ih =>
    unfold readBlocks
    by_cases h : 1 + m < n
    · rw [if_pos h]
      rw [List.flatMap_cons, List.length_append] at hm
      obtain ⟨rest, h1, h2⟩ := ih (m + b.nodes.length) (by omega)
      exact ⟨rest, by rw [List.cons_append, ← h1], h2⟩
    · rw [if_neg h]
      refine ⟨b :: t, rfl, ?_⟩
      have hl : ((b :: t).flatMap (·.nodes)).length ≤ 1 := by omega
      generalize (b :: t).flatMap (·.nodes) = L at hl
      match L, hl with
      | [], _ => exact .inl rfl
      | [q], _ => exact .inr ⟨q, rfl⟩
      | _ :: _ :: _, hl => simp at hl

theorem fill_get {p : List (Option (R × R × R))} {nodes : List (Int × R × R × R)} (hnd : (nodes.map (·.1)).Nodup)
    (hr : ∀ q ∈ nodes, 1 ≤ q.1 ∧ q.1 ≤ p.length) :
    (∀ q ∈ nodes, (fill p nodes)[(q.1 - 1).toNat]? = some (some q.2)) ∧
    ∀ t : Int, 1 ≤ t → t ∉ nodes.map (·.1) → (fill p nodes)[(t - 1).toNat]? = p[(t - 1).toNat]? := by
  unfold fill
  induction nodes using List.reverseRecOn with
  | nil => simp
  | append_singleton l a ih =>
    rw [List.map_append, List.nodup_append] at hnd
    obtain ⟨i1, i2⟩ := ih hnd.1 (fun q hq => hr q (List.mem_append_left _ hq))
    have ha := hr a (by simp)
    have hlen : (fill p l).length = p.length := fill_length p l
    unfold fill at hlen
    rw [List.foldl_append, List.foldl_cons, List.foldl_nil]
    constructor
    · intro q hq
      rcases List.mem_append.1 hq with hq | hq
      · have hne : a.1 ≠ q.1 := by
          intro e
          exact hnd.2.2 _ (List.mem_map_of_mem hq) a.1 (by simp) e.symm
        have h1 := hr q (List.mem_append_left _ hq)
        rw [List.getElem?_set_ne (by omega)]
        exact i1 q hq
      · rw [List.mem_singleton] at hq; subst hq
        rw [List.getElem?_set_self (by omega)]
    · intro t ht hnt
      simp only [List.map_append, List.mem_append, List.map_cons, List.map_nil, List.mem_singleton, not_or] at hnt
      rw [List.getElem?_set_ne (by omega)]
      exact i2 t ht hnt.1

/-! ### Physical groups of the format 4.1 -/

/-- The ninth word of the line of an entity: its first group, or the number of its bounds. -/
def ninth (e : Entity) : Int := e.phys[0]?.getD (e.bounds.length : Int)

theorem entLine_ok {entities : Lines} {j : Int} {i : Int} {a : Nat} {l : List String} {e : Entity} (hi : i = (a : Int))
    (hl : entities[a]? = some l) (he : EntityLine num l e) :
    entLine num entities j i = .ok (if j = e.tag then some (ninth e) else none) := by
  obtain ⟨w, box, rest, rfl, hbox, hw, hrest⟩ := he
  have h0 : intAt num entities i 0 = .ok e.tag := by
    unfold intAt
    rw [word_ok (i := i) (j := 0) (b := 0) hi rfl hl rfl, Except_bind_ok, hw]
  have hrl := hrest.length_eq
  simp only [List.length_cons, List.length_append] at hrl
  have hlen : 8 ≤ (w :: (box ++ rest)).length := by simp; omega
  have h8 : intAt num entities i 8 = .ok (ninth e) := by
    have hget : (e.phys ++ (e.bounds.length : Int) :: e.bounds)[0]? = some (ninth e) := by
      unfold ninth
      cases e.phys <;> simp
    obtain ⟨w8, hw8, hv⟩ := IntLine.get hrest (k := 1) (by simpa using hget)
    unfold intAt
    rw [word_ok (i := i) (j := 8) (b := 8) (w := w8) hi rfl hl (by
      rw [List.getElem?_cons_succ, List.getElem?_append_right (by omega), show 7 - box.length = 1 by omega]
      exact hw8), Except_bind_ok, hv]
  unfold entLine
  rw [npGet_at hi hl, Except_bind_ok, h0, Except_bind_ok]
  by_cases hj : j = e.tag
  · rw [if_pos ⟨hj, hlen⟩, if_pos hj, h8]
    rfl
  · rw [if_neg (fun h => hj h.1), if_neg hj]
    rfl

theorem entLoop_ok {entities : Lines} {j : Int} {ls : Lines} {es : List Entity}
    (h : List.Forall₂ (EntityLine num) ls es) (a : Nat)
    (hl : ∀ (k : Nat) (l : List String), ls[k]? = some l → entities[a + k]? = some l) :
    entLoop num entities j (pyRange (a : Int) ((a : Int) + (ls.length : Int))) =
      .ok (match es.find? fun e => e.tag = j with | some e => ninth e | none => 0) := by
  induction h generalizing a with
  | nil => rw [pyRange_eq_nil (by simp)]; rfl
  | @cons l e ls es hle hrest ih =>
    rw [pyRange_cons (by simp only [List.length_cons]; omega)]
    unfold entLoop
    rw [entLine_ok (a := a) rfl (by simpa using hl 0 l rfl) hle, Except_bind_ok]
    by_cases hj : j = e.tag
    · rw [if_pos hj, List.find?_cons_of_pos (by simpa using hj.symm)]
      rfl
    · rw [if_neg hj, List.find?_cons_of_neg (by simpa using fun h => hj h.symm)]
      simp only
      have := ih (a + 1) (by
        intro k l' hk
        rw [show a + 1 + k = a + (k + 1) by omega]
        exact hl (k + 1) l' (by simpa using hk))
      rw [show (a : Int) + ((l :: ls).length : Int) = ((a + 1 : Nat) : Int) + (ls.length : Int) by simp; omega,
        show (a : Int) + 1 = ((a + 1 : Nat) : Int) by omega, this]

/-- The group found for an entity number: the last curve is looked at first, then the surfaces. -/
def foundGroup (curves surfaces : List Entity) (j : Int) : Int :=
  match ((curves.getLast?).toList ++ surfaces).find? fun e => e.tag = j with
  | some e => ninth e
  | none => 0

theorem findEnt_ok {msh : Lines} {npoint : Nat} {curves surfaces volumes : List Entity}
    (h : HasEntities num msh npoint curves surfaces volumes) (hc : curves ≠ []) (j : Int) :
    findEnt num msh j = .ok (foundGroup curves surfaces j) := by
  obtain ⟨head, lp, lc, ls, lv, hs, hh, hp, hlc, hls, -⟩ := h
  unfold findEnt
  rw [getSection_ok hs, Except_bind_ok, intAt_ok (i := 0) (j := 0) (a := 0) (b := 0) rfl rfl rfl hh rfl, Except_bind_ok,
    intAt_ok (i := 0) (j := 1) (a := 0) (b := 1) rfl rfl rfl hh rfl, Except_bind_ok,
    intAt_ok (i := 0) (j := 2) (a := 0) (b := 2) rfl rfl rfl hh rfl, Except_bind_ok]
  have e1 := hlc.length_eq
  have e2 := hls.length_eq
  obtain ⟨c0, cl, rfl⟩ : ∃ c0 cl, curves = c0 ++ [cl] := ⟨_, _, (List.dropLast_concat_getLast hc).symm⟩
  have hlcne : lc ≠ [] := by rintro rfl; simp at e1
  obtain ⟨l0, ll, rfl⟩ : ∃ l0 ll, lc = l0 ++ [ll] := ⟨_, _, (List.dropLast_concat_getLast hlcne).symm⟩
  have hlast : EntityLine num ll cl := by
    obtain ⟨y, hy, hP⟩ := forall₂_get' hlc (k := l0.length) (x := ll) (by simp)
    simp only [List.length_append, List.length_singleton] at e1
    rw [show l0.length = c0.length by omega] at hy
    simp only [List.getElem?_append_right (Nat.le_refl _), Nat.sub_self, List.getElem?_cons_zero,
      Option.some.injEq] at hy
    subst hy; exact hP
  have := entLoop_ok (num := num) (entities := head :: (lp ++ (l0 ++ [ll]) ++ ls ++ lv)) (j := j)
    (List.Forall₂.cons hlast hls) (lp.length + l0.length + 1) (by
      intro k l hk
      rw [show lp.length + l0.length + 1 + k = (lp.length + l0.length + k) + 1 by omega, List.getElem?_cons_succ]
      have e3 : lp ++ (l0 ++ [ll]) ++ ls ++ lv = (lp ++ l0) ++ ((ll :: ls) ++ lv) := by simp
      have hk' : k < (ll :: ls).length := by
        by_contra hcon
        rw [List.getElem?_eq_none (by omega)] at hk; cases hk
      rw [e3, List.getElem?_append_right (by simp only [List.length_append]; omega),
        List.getElem?_append_left (by simp only [List.length_append]; omega)]
      rw [← hk]; congr 1; simp only [List.length_append]; omega)
  simp only [List.length_append, List.length_singleton] at e1 ⊢
  simp only [List.length_cons] at this
  rw [show (npoint : Int) + ((c0.length + 1 : Nat) : Int) = ((lp.length + l0.length + 1 : Nat) : Int) by omega,
    show (surfaces.length : Int) + ((lp.length + l0.length + 1 : Nat) : Int) + 1 =
      ((lp.length + l0.length + 1 : Nat) : Int) + ((ls.length + 1 : Nat) : Int) by omega, this]
  unfold foundGroup
  rw [List.getLast?_concat]
  rfl

/-! ### Elements of the format 4.1 -/

/-- The elements read from the blocks. -/
def eltsRead (v : Int → Int) (blocks : List EltBlock) : List Elt :=
  blocks.flatMap fun b => b.elts.map fun p => ⟨p.1, b.type, [v b.ent, b.ent], p.2⟩

theorem eltBlock_ok {msh : Lines} {v : Int → Int} (hv : ∀ j, findEnt num msh j = .ok (v j)) {elements pre post part : Lines}
    {b : EltBlock} (hb : IsEltBlock num part b) (he : elements = pre ++ part ++ post) (acc : List (List Int)) :
    eltBlock num msh elements ((pre.length : Int), acc) =
      .ok (((pre ++ part).length : Int), acc ++ (eltsRead v [b]).map Elt.line) := by
  obtain ⟨head, rows, rfl, hh, hrows⟩ := hb
  have hget : elements[pre.length]? = some head := by rw [he]; simp
  unfold eltBlock
  simp only
  rw [intAt_ok (i := (pre.length : Int)) (j := 2) (a := pre.length) (b := 2) rfl rfl hget hh rfl, Except_bind_ok,
    intAt_ok (i := (pre.length : Int)) (j := 1) (a := pre.length) (b := 1) rfl rfl hget hh rfl, Except_bind_ok, hv,
    Except_bind_ok, intAt_ok (i := (pre.length : Int)) (j := 3) (a := pre.length) (b := 3) rfl rfl hget hh rfl,
    Except_bind_ok]
  have hl := hrows.length_eq
  have hm : (pyRange ((pre.length : Int) + 1) ((pre.length : Int) + (b.elts.length : Int) + 1)).mapM
      (eltLine num elements b.type (v b.ent) b.ent) = .ok ((eltsRead v [b]).map Elt.line) := by
    have hlen : ((eltsRead v [b]).map Elt.line).length = b.elts.length := by simp [eltsRead]
    rw [show (pre.length : Int) + (b.elts.length : Int) + 1 =
      (pre.length : Int) + 1 + (((eltsRead v [b]).map Elt.line).length : Int) by rw [hlen]; omega]
    apply mapM_pyRange
    intro k x hk
    simp only [eltsRead, List.flatMap_cons, List.flatMap_nil, List.append_nil, List.map_map, List.getElem?_map] at hk
    cases hp : b.elts[k]? with
    | none => rw [hp] at hk; cases hk
    | some p =>
      rw [hp] at hk
      simp only [Option.map_some, Option.some.injEq, Function.comp_apply] at hk
      obtain ⟨l, hl1, hl2⟩ := forall₂_get hrows hp
      have hg : elements[pre.length + 1 + k]? = some l := by
        have hk' : k < rows.length := by
          by_contra hcon
          rw [List.getElem?_eq_none (by omega)] at hl1; cases hl1
        rw [he, List.append_assoc, List.getElem?_append_right (by omega),
          show pre.length + 1 + k - pre.length = k + 1 by omega, List.cons_append, List.getElem?_cons_succ,
          List.getElem?_append_left hk', hl1]
      unfold eltLine
      rw [intLine_ok (a := pre.length + 1 + k) (by omega) hg hl2, Except_bind_ok, ← hk]
      rfl
  rw [hm, Except_bind_ok]
  simp only [Except_pure, List.length_append, List.length_cons, hl]
  congr 2

theorem readEltsV4_ok {msh : Lines} {v : Int → Int} (hv : ∀ j, findEnt num msh j = .ok (v j)) {blocks : List EltBlock}
    (h : HasElts4 num msh blocks) : readEltsV4 num msh = .ok ((eltsRead v blocks).map Elt.line) := by
  obtain ⟨head, parts, lo, hi, hs, hh, hp⟩ := h
  unfold readEltsV4
  rw [getSection_ok hs, Except_bind_ok, intAt_ok (i := 0) (j := 0) (a := 0) (b := 0) rfl rfl rfl hh rfl, Except_bind_ok]
  have gen : ∀ (parts : List Lines) (blocks : List EltBlock), List.Forall₂ (IsEltBlock num) parts blocks →
      ∀ (pre : Lines) (elements : Lines), elements = pre ++ parts.flatten → ∀ (a : Int) (acc : List (List Int)),
      (pyRange a (a + (blocks.length : Int))).foldlM (fun st _ => eltBlock num msh elements st) ((pre.length : Int), acc) =
        .ok (((pre ++ parts.flatten).length : Int), acc ++ (eltsRead v blocks).map Elt.line) := by
    intro parts blocks hp
    induction hp with
    | nil =>
      intro pre elements _ a acc
      rw [pyRange_eq_nil (by simp)]
      simp [eltsRead]
    | @cons part b parts blocks hb _ ih =>
      intro pre elements he a acc
      rw [pyRange_cons (by simp only [List.length_cons]; omega), List.foldlM_cons,
        eltBlock_ok hv hb (post := parts.flatten) (by rw [he]; simp) acc, Except_bind_ok,
        show a + ((b :: blocks).length : Int) = a + 1 + (blocks.length : Int) by simp; omega,
        ih (pre ++ part) elements (by rw [he]; simp)]
      simp [eltsRead]
  have := gen parts blocks hp [head] (head :: parts.flatten) rfl 0 []
  simp only [Int.zero_add] at this
  have e1 : (([head] : Lines).length : Int) = 1 := rfl
  rw [e1] at this
  rw [this]
  simp

/-- The mesh does not depend on the tags of other elements than the boundary ones. -/
theorem isMeshOf_congr {X : Type} (L : List X) (u u' : X → Elt) (ht : ∀ x ∈ L, (u x).type = (u' x).type)
    (hn : ∀ x ∈ L, (u x).nodes = (u' x).nodes) {names : Option (List PhysName)}
    (hb : ∀ x ∈ L, u x ∈ bordersOf (L.map u) → boundaryOf names (u x) = boundaryOf names (u' x))
    {pts : List (Option (R × R × R))} {m : Mesh (Option R)} (h : IsMeshOf pts names (L.map u) m) :
    IsMeshOf pts names (L.map u') m := by
  have hdim : ∀ x ∈ L, (u x).dim = (u' x).dim := by intro x hx; unfold Elt.dim; rw [ht x hx]
  have hname : ∀ x ∈ L, (u x).name = (u' x).name := by intro x hx; unfold Elt.name; rw [ht x hx]
  have htop : topDim (L.map u) = topDim (L.map u') := by
    unfold topDim
    clear h hb hn hname ht
    induction L with
    | nil => rfl
    | cons x t ih =>
      simp only [List.map_cons, List.foldr_cons]
      rw [ih (fun y hy => hdim y (List.mem_cons_of_mem _ hy)), hdim x List.mem_cons_self]
  have hcell : ∃ L' : List X, (∀ x ∈ L', x ∈ L) ∧ cellsOf (L.map u) = L'.map u ∧ cellsOf (L.map u') = L'.map u' := by
    refine ⟨L.filter fun x => decide ((u x).dim = topDim (L.map u)), fun x hx => List.mem_of_mem_filter hx, ?_, ?_⟩
    · unfold cellsOf; rw [List.filter_map]; rfl
    · unfold cellsOf; rw [List.filter_map]
      congr 1
      apply List.filter_congr
      intro x hx
      simp only [Function.comp_apply]
      rw [← htop, hdim x hx]
  have hbord : ∃ L' : List X, (∀ x ∈ L', x ∈ L) ∧ bordersOf (L.map u) = L'.map u ∧ bordersOf (L.map u') = L'.map u' := by
    refine ⟨L.filter fun x => decide ((u x).dim + 1 = topDim (L.map u)), fun x hx => List.mem_of_mem_filter hx, ?_, ?_⟩
    · unfold bordersOf; rw [List.filter_map]; rfl
    · unfold bordersOf; rw [List.filter_map]
      congr 1
      apply List.filter_congr
      intro x hx
      simp only [Function.comp_apply]
      rw [← htop, hdim x hx]
  obtain ⟨C, hC, c1, c2⟩ := hcell
  obtain ⟨B, hB, b1, b2⟩ := hbord
  have hbB : ∀ x ∈ B, boundaryOf names (u x) = boundaryOf names (u' x) := by
    intro x hx
    exact hb x (hB x hx) (by rw [b1]; exact List.mem_map_of_mem hx)
  obtain ⟨h1, h2, h3, ⟨c, hc, hcs⟩, hm⟩ := h
  rw [c1] at h3 hcs
  rw [b1] at hm
  refine ⟨h1, h2, by rw [c2]; simpa using h3, ⟨c, hc, ?_⟩, ?_⟩
  · rw [c2]
    refine ⟨hcs.wf, by simpa using hcs.count, ?_, ?_, by simpa using hcs.indices⟩
    · rw [hcs.types, List.map_map, List.map_map]
      congr 1
      exact List.map_congr_left fun x hx => hname x (hC x hx)
    · intro t
      rw [hcs.rows t, List.filter_map, List.filter_map, List.map_map, List.map_map]
      have hf : C.filter ((fun e => decide (e.name = t)) ∘ u) = C.filter ((fun e => decide (e.name = t)) ∘ u') := by
        apply List.filter_congr
        intro x hx
        simp only [Function.comp_apply]
        rw [hname x (hC x hx)]
      rw [hf]
      apply List.map_congr_left
      intro x hx
      simp only [Function.comp_apply]
      rw [hn x (hC x (List.mem_of_mem_filter hx))]
  · rw [b2]
    refine ⟨hm.distinct, ?_, ?_⟩
    · intro name
      rw [hm.names]
      simp only [List.mem_map, exists_exists_and_eq_and]
      constructor
      · rintro ⟨x, hx, hxn⟩; exact ⟨x, hx, by rw [← hbB x hx]; exact hxn⟩
      · rintro ⟨x, hx, hxn⟩; exact ⟨x, hx, by rw [hbB x hx]; exact hxn⟩
    · intro name b hget
      obtain ⟨m1, m2, m3, m4⟩ := hm.marks name b hget
      refine ⟨m1, m2, m3, ?_⟩
      intro n
      rw [m4]
      simp only [List.mem_map, exists_exists_and_eq_and]
      constructor
      · rintro ⟨x, hx, hxn, hxm⟩; exact ⟨x, hx, by rw [← hbB x hx]; exact hxn, by rw [← hn x (hB x hx)]; exact hxm⟩
      · rintro ⟨x, hx, hxn, hxm⟩; exact ⟨x, hx, by rw [hbB x hx]; exact hxn, by rw [hn x (hB x hx)]; exact hxm⟩

end Cfd.Gmsh
