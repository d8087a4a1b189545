import Verif.Spec.Extrude
import Verif.Lemmas.Mesh
import Verif.Lemmas.Faces
import Mathlib.Data.List.Flatten

/-! Lemmas on tiling loops and extrusion. -/

namespace Cfd
open Spec ElemConn

theorem length_mapSlice {α : Type} (f : α → α) (lo hi : Nat) (a : List α) :
    (mapSlice f lo hi a).length = a.length := by simp [mapSlice]

theorem getElem_mapSlice {α : Type} (f : α → α) (lo hi : Nat) (a : List α) (i : Nat)
    (h : i < (mapSlice f lo hi a).length) :
    (mapSlice f lo hi a)[i] =
      if lo ≤ i ∧ i < hi then f (a[i]'(by simpa [length_mapSlice] using h))
      else a[i]'(by simpa [length_mapSlice] using h) := by
  simp [mapSlice]

theorem mapSlice_mid {α : Type} (f : α → α) (pre l post : List α) (lo hi : Nat)
    (h1 : lo = pre.length) (h2 : hi = pre.length + l.length) :
    mapSlice f lo hi (pre ++ l ++ post) = pre ++ l.map f ++ post := by
  subst h1 h2
  apply List.ext_getElem
  · simp [length_mapSlice]
  · intro i hi1 hi2
    rw [getElem_mapSlice]
    simp only [List.length_append, List.length_map] at hi2
    by_cases c1 : i < pre.length
    · rw [if_neg (by omega)]
      rw [List.getElem_append_left (by simp; omega), List.getElem_append_left c1,
        List.getElem_append_left (by simp; omega), List.getElem_append_left c1]
    · by_cases c2 : i < pre.length + l.length
      · rw [if_pos (by omega)]
        rw [List.getElem_append_left (by simp; omega), List.getElem_append_right (by omega),
          List.getElem_append_left (by simp; omega), List.getElem_append_right (by omega)]
        simp
      · rw [if_neg (by omega)]
        rw [List.getElem_append_right (by simp; omega), List.getElem_append_right (by simp; omega)]
        simp

theorem length_flatMap_const {α β : Type} (l : List α) (g : α → List β) (n : Nat)
    (h : ∀ a ∈ l, (g a).length = n) : (l.flatMap g).length = l.length * n := by
  induction l with
  | nil => simp
  | cons a t ih =>
    rw [List.flatMap_cons, List.length_append, h a (by simp), ih (fun b hb => h b (by simp [hb])),
      List.length_cons, Nat.succ_mul, Nat.add_comm]

/-- The tiling loop: block `i` is the original with `f i` applied. -/
theorem sliceLoop_tile {α : Type} (f : Nat → α → α) (l : List α) (n : Nat) :
    sliceLoop f l.length n (npTile n l) = (List.range n).flatMap fun i => l.map (f i) := by
  unfold sliceLoop npTile
  have key : ∀ m, m ≤ n → (List.range m).foldl
      (fun a i => mapSlice (f i) (i * l.length) ((i + 1) * l.length) a) (List.replicate n l).flatten =
      ((List.range m).flatMap fun i => l.map (f i)) ++ (List.replicate (n - m) l).flatten := by
    intro m
    induction m with
    | zero => intro _; simp
    | succ m ih =>
      intro hm
      rw [List.range_succ, List.foldl_append, ih (by omega)]
      simp only [List.foldl_cons, List.foldl_nil]
      have h1 : n - m = (n - (m + 1)) + 1 := by omega
      rw [h1, List.replicate_succ, List.flatten_cons, ← List.append_assoc]
      have hl : ((List.range m).flatMap fun i => l.map (f i)).length = m * l.length := by
        rw [length_flatMap_const _ _ l.length (by simp), List.length_range]
      rw [mapSlice_mid _ _ _ _ _ _ hl.symm (by rw [hl, Nat.succ_mul])]
      simp
  rw [key n (Nat.le_refl _)]
  simp

theorem map_npTile {α β : Type} (g : α → β) (n : Nat) (l : List α) :
    (npTile n l).map g = npTile n (l.map g) := by
  simp [npTile]

theorem sweptRow (N : Nat) (r : List Int) (n : Nat) (h : r.length = n) :
    mapSlice (· + (N : Int)) n (2 * n) (r ++ r) = r ++ r.map (· + (N : Int)) := by
  have := mapSlice_mid (· + (N : Int)) r r [] n (2 * n) h.symm (by omega)
  simpa using this

/-- Closed form of the extrusion of one entry. -/
theorem extrudeEntry_eq (ncell N n : Nat) (rows : List (List Int)) (index : List Int)
    (hr : ∀ r ∈ rows, r.length = n) (hi : index.length = rows.length) :
    extrudeEntry ncell N n rows index =
      ((List.range ncell).flatMap (fun k => rows.map (sweptNodes N k)),
       (List.range ncell).flatMap (fun (k : Nat) => index.map fun x => x + (k : Int) * N)) := by
  unfold extrudeEntry
  simp only
  rw [map_npTile, List.map_map]
  have h1 : rows.map (mapSlice (fun x => x + (N : Int)) n (2 * n) ∘ fun r => r ++ r) =
      rows.map fun r => r ++ r.map (· + (N : Int)) := by
    apply List.map_congr_left
    intro r hrm
    exact sweptRow N r n (hr r hrm)
  rw [h1]
  have h2 := sliceLoop_tile (fun (i : Nat) (r : List Int) => r.map (· + (i : Int) * N))
    (rows.map fun r => r ++ r.map (· + (N : Int))) ncell
  rw [List.length_map] at h2
  rw [h2, ← hi, sliceLoop_tile]
  congr 2
  funext k
  rw [List.map_map]
  apply List.map_congr_left
  intro r _
  simp only [Function.comp, sweptNodes, List.map_append, List.map_map]
  congr 1
  apply List.map_congr_left
  intro x _
  simp only [Function.comp]
  rw [Int.add_mul]; omega

theorem swept_tables {t x : String} {n : Nat} (h : swept t = some (n, x)) :
    nnodeElem.get? t = some n ∧ extrudedFace.get? t = some x := by
  unfold swept at h
  split at h <;> simp only [Option.some.injEq, Prod.mk.injEq, reduceCtorEq] at h <;>
    obtain ⟨rfl, rfl⟩ := h <;> exact ⟨by decide, by decide⟩

theorem swept_inj {t t' x : String} {n n' : Nat} (h : swept t = some (n, x))
    (h' : swept t' = some (n', x)) : t = t' ∧ n = n' := by
  unfold swept at h h'
  split at h <;> simp only [Option.some.injEq, Prod.mk.injEq, reduceCtorEq] at h <;>
    obtain ⟨rfl, rfl⟩ := h <;> split at h' <;> simp_all

/-- Entry produced by the extrusion. -/
def sweptEntry (ncell N : Nat) (p : String × Entry) : String × Entry :=
  (((swept p.1).getD (0, "")).2,
   ⟨.list ((List.range ncell).flatMap fun (k : Nat) => (indicesOf p.2).map fun x => x + (k : Int) * N),
    ⟨some (2 * ((swept p.1).getD (0, "")).1),
      (List.range ncell).flatMap fun k => p.2.e2n.rows.map (sweptNodes N k)⟩⟩)

theorem extrude_fold (ncell N : Nat) (d : Dict String Entry) (hk : d.keys.Nodup)
    (hd : ∀ p ∈ d, EntryWF p.2)
    (ht : ∀ p ∈ d, ∃ n x, swept p.1 = some (n, x) ∧ p.2.e2n.ncol = some n)
    (new : ElemConn) (hnew : ∀ p ∈ d, (sweptEntry ncell N p).1 ∉ new.tbl.keys) :
    d.foldlM (extrudeStep ncell N) new =
    (.ok ⟨new.nelem + ncell * totalRows d, new.tbl ++ d.map (sweptEntry ncell N)⟩ : Py ElemConn) := by
  induction d generalizing new with
  | nil => simp [totalRows, pure, Except.pure]
  | cons p t ih =>
    simp only [Dict.keys, List.map_cons, List.nodup_cons] at hk
    obtain ⟨n, x, hs, hn⟩ := ht p (by simp)
    obtain ⟨h1, h2⟩ := swept_tables hs
    have hp := hd p (by simp)
    rw [List.foldlM_cons]
    have hrows : ∀ r ∈ p.2.e2n.rows, r.length = n := by
      have := hp.2; unfold Arr2.WF at this; rw [hn] at this; exact this
    have hx : (sweptEntry ncell N p).1 = x := by simp [sweptEntry, hs]
    have hxn : x ∉ new.tbl.keys := hx ▸ hnew p (by simp)
    have hstep : extrudeStep ncell N new p =
        .ok ⟨new.nelem + ncell * p.2.e2n.rows.length, new.tbl ++ [sweptEntry ncell N p]⟩ := by
      unfold extrudeStep
      simp only [hn, Dict.getE, h1, h2, hp.toList, Except_bind_ok]
      rw [extrudeEntry_eq ncell N n _ _ hrows hp.length]
      simp only [addElems, newIndex]
      rw [Dict.get?_eq_none_iff.2 hxn]
      simp only
      rw [Dict.set_of_not_mem _ hxn, length_flatMap_const _ _ p.2.e2n.rows.length (by simp),
        List.length_range]
      simp [sweptEntry, hs]
    rw [hstep, Except_bind_ok, ih hk.2 (fun q hq => hd q (by simp [hq])) (fun q hq => ht q (by simp [hq]))]
    · simp only [List.map_cons, List.append_assoc, List.singleton_append]
      congr 2
      have : totalRows (p :: t) = p.2.e2n.rows.length + totalRows t := by simp [totalRows]
      rw [this, Nat.mul_add]; omega
    · intro q hq
      simp only [Dict.keys, List.map_append, List.map_cons, List.map_nil, List.mem_append,
        List.mem_singleton, not_or]
      refine ⟨hnew q (by simp [hq]), ?_⟩
      obtain ⟨n', x', hs', _⟩ := ht q (by simp [hq])
      simp only [sweptEntry, hs, hs', Option.getD_some]
      rintro rfl
      have := (swept_inj hs hs').1
      exact hk.1 (this ▸ List.mem_map_of_mem hq)

/-- Closed form of `extrude`. -/
theorem extrude_eq {c : ElemConn} (hc : ConnWF c)
    (ht : ∀ p ∈ c.tbl, ∃ n x, swept p.1 = some (n, x) ∧ p.2.e2n.ncol = some n)
    (planes N : Nat) (hp : 2 ≤ planes) :
    c.extrude planes N = .ok ⟨(planes - 1) * c.nelem, c.tbl.map (sweptEntry (planes - 1) N)⟩ := by
  unfold ElemConn.extrude
  have : pyAssert (decide (1 < planes)) = .ok () := by simp [pyAssert]; omega
  rw [this, Except_bind_ok]
  rw [extrude_fold (planes - 1) N c.tbl hc.keys hc.entries ht ElemConn.empty (by simp [ElemConn.empty, Dict.keys])]
  simp [ElemConn.empty, hc.nelem, elements_length hc.entries]

/-! ### coordinates and marks -/

theorem extrudeCoords_eq {R : Type} [Add R] [Mul R] (N : Nat) (d : R × R × R) (planes : List R)
    (nd : List (R × R × R)) (h : nd.length = N) :
    Mesh.extrudeCoords N d planes nd = planes.flatMap fun s => nd.map fun p => translate p d s := by
  unfold Mesh.extrudeCoords npTile
  have key : ∀ (todo : List R) (k : Nat) (pre : List (R × R × R)), pre.length = k * N →
      (todo.zipIdx k).foldl (fun a s =>
        mapSlice (fun p => (p.1 + s.1 * d.1, p.2.1 + s.1 * d.2.1, p.2.2 + s.1 * d.2.2))
          (s.2 * N) ((s.2 + 1) * N) a) (pre ++ (List.replicate todo.length nd).flatten) =
      pre ++ todo.flatMap fun s => nd.map fun p => translate p d s := by
    intro todo
    induction todo with
    | nil => intro k pre _; simp
    | cons s t ih =>
      intro k pre hpre
      rw [List.zipIdx_cons, List.foldl_cons, List.length_cons, List.replicate_succ, List.flatten_cons,
        ← List.append_assoc]
      simp only
      rw [mapSlice_mid _ _ _ _ _ _ hpre.symm (by rw [hpre, h, Nat.succ_mul])]
      rw [ih (k + 1) _ (by rw [List.length_append, List.length_map, hpre, h, Nat.succ_mul])]
      rw [List.flatMap_cons, List.append_assoc]
      rfl
  simpa using key planes 0 [] (by simp)

theorem sliceLoop_nil {α : Type} (f : Nat → α → α) (len n : Nat) : sliceLoop f len n [] = [] := by
  unfold sliceLoop
  have : ∀ l : List Nat, l.foldl (fun a i => mapSlice (f i) (i * len) ((i + 1) * len) a) [] = [] := by
    intro l
    induction l with
    | nil => rfl
    | cons a t ih => simpa [mapSlice] using ih
  exact this _

/-- The mark copied in all planes. -/
def copiedMark (p N : Nat) (b : Mark) : Mark :=
  ⟨b.name, b.geodim, b.type,
    .list ((List.range p).flatMap fun (i : Nat) => (markItems b).map fun x => x + (i : Int) * N), none⟩

theorem extrudeMark_ok (p N : Nat) {b : Mark} (h1 : b.index ≠ .unset)
    (h2 : b.geodim ∈ [GeoDim.node, GeoDim.intnode, GeoDim.bdnode]) :
    Mesh.extrudeMark p N b = .ok (copiedMark p N b) := by
  unfold Mesh.extrudeMark
  have hnb : b.nodebased = true := by
    unfold Mark.nodebased
    simp only [List.mem_cons, List.not_mem_nil, or_false] at h2
    rcases h2 with h | h | h <;> simp [h]
  have ha : pyAssert b.nodebased = .ok () := by rw [hnb]; rfl
  rw [ha, Except_bind_ok, toList_markItems h1, Except_bind_ok]
  have hs : ∃ n, b.index.size = .ok n ∧ (n.toNat = (markItems b).length) := by
    have hl := toList_markItems h1
    cases hb : b.index with
    | unset => exact absurd hb h1
    | range lo hi =>
      rw [hb] at hl
      simp only [IndexList.toList, Except.ok.injEq] at hl
      refine ⟨_, rfl, ?_⟩
      rw [← hl, length_pyRange]; congr 1; omega
    | list l =>
      rw [hb] at hl
      simp only [IndexList.toList, Except.ok.injEq] at hl
      exact ⟨_, rfl, by rw [← hl]; simp⟩
  obtain ⟨n, hn1, hn2⟩ := hs
  rw [hn1, Except_bind_ok, hn2, sliceLoop_tile]
  simp only [copiedMark, Int.natCast_mul]
  rfl

theorem extrudeMarks_fold {R : Type} (p N : Nat) (l : Dict String Mark) (new : Mesh R)
    (h : ∀ q ∈ l, q.1 = q.2.name ∧ q.2.index ≠ .unset ∧
      q.2.geodim ∈ [GeoDim.node, GeoDim.intnode, GeoDim.bdnode])
    (hk : (new.bocos.keys ++ l.keys).Nodup) :
    l.foldlM (fun (new : Mesh R) (q : String × Mark) => do
        let b ← Mesh.extrudeMark p N q.2
        return new.addBoco b) new =
      (.ok { new with bocos := new.bocos ++ l.map fun q => (q.1, copiedMark p N q.2) } : Py (Mesh R)) := by
  induction l generalizing new with
  | nil => simp [pure, Except.pure]
  | cons q t ih =>
    obtain ⟨h1, h2, h3⟩ := h q (by simp)
    rw [List.foldlM_cons, extrudeMark_ok p N h2 h3, Except_bind_ok]
    have hq : q.1 ∉ new.bocos.keys := by
      intro hm
      rw [List.nodup_append] at hk
      exact hk.2.2 _ hm _ (by simp [Dict.keys]) rfl
    have hadd : new.addBoco (copiedMark p N q.2) =
        { new with bocos := new.bocos ++ [(q.1, copiedMark p N q.2)] } := by
      unfold Mesh.addBoco
      have : (copiedMark p N q.2).name = q.1 := by rw [h1]; rfl
      rw [this, Dict.set_of_not_mem _ hq]
    have e1 : ((pure (new.addBoco (copiedMark p N q.2)) : Py (Mesh R)) >>= fun s' =>
        t.foldlM (fun (new : Mesh R) (q : String × Mark) => do
        let b ← Mesh.extrudeMark p N q.2
        return new.addBoco b) s') = t.foldlM (fun (new : Mesh R) (q : String × Mark) => do
        let b ← Mesh.extrudeMark p N q.2
        return new.addBoco b) (new.addBoco (copiedMark p N q.2)) := rfl
    rw [e1, hadd, ih]
    · simp
    · exact fun q hq => h q (by simp [hq])
    · simpa [Dict.keys] using hk

/-- The extruded mesh in closed form. -/
theorem exportExtruded_eq {R : Type} [Add R] [Mul R] (so : List Int → List Int) (m : Mesh R)
    (c : ElemConn) (h : Extrudable m c) {x y z : List R} (hc : m.coords = some (x, y, z))
    (d : R × R × R) (planes : List R) (hp : 2 ≤ planes.length) (domain : String) :
    m.exportExtruded so d planes domain = .ok
      { ncell := (planes.length - 1) * c.nelem
        nnode := m.nnode * planes.length
        nface := 0
        cell2node := some ⟨(planes.length - 1) * c.nelem,
          c.tbl.map (sweptEntry (planes.length - 1) m.nnode)⟩
        faces := []
        coords := (let pts := planes.flatMap fun s => (x.zip (y.zip z)).map fun p => translate p d s
                   some (pts.map (·.1), pts.map (·.2.1), pts.map (·.2.2)))
        bocos := (Dict.set (m.bocos.map fun q => (q.1, copiedMark planes.length m.nnode q.2))
            (domain ++ "0") ⟨domain ++ "0", .bdnode, "boundary", .list (c.nodelist so), none⟩).set
            (domain ++ "1") ⟨domain ++ "1", .bdnode, "boundary",
              .list ((c.nodelist so).map (· + (((planes.length - 1) * m.nnode : Nat) : Int))), none⟩ } := by
  obtain ⟨x', y', z', hc', hx, hy, hz⟩ := h.coords
  rw [hc] at hc'
  simp only [Option.some.injEq, Prod.mk.injEq] at hc'
  obtain ⟨rfl, rfl, rfl⟩ := hc'
  unfold Mesh.exportExtruded
  have ha : pyAssert (decide (1 < planes.length)) = .ok () := by simp [pyAssert]; omega
  have hnd : m.nodesNd = .ok (x.zip (y.zip z)) := by
    unfold Mesh.nodesNd; rw [hc]; simp [hx, hy, hz]
  have hlen : (x.zip (y.zip z)).length = m.nnode := by simp [hx, hy, hz]
  simp only [ha, Except_bind_ok, hnd]
  rw [extrudeCoords_eq _ _ _ _ hlen]
  have hset : ∀ new : Mesh R, new.nnode = m.nnode * planes.length → new.setCoordsNd
      (planes.flatMap fun s => (x.zip (y.zip z)).map fun p => translate p d s) =
      .ok { new with coords := (let pts := planes.flatMap fun s => (x.zip (y.zip z)).map fun p => translate p d s
                   some (pts.map (·.1), pts.map (·.2.1), pts.map (·.2.2))) } := by
    intro new hn
    unfold Mesh.setCoordsNd
    have : pyAssert (decide ((planes.flatMap fun s => (x.zip (y.zip z)).map fun p => translate p d s).length
        = new.nnode)) = .ok () := by
      rw [length_flatMap_const _ _ m.nnode (by intro a _; rw [List.length_map, hlen]), hn, Nat.mul_comm]
      simp [pyAssert]
    rw [this]
    rfl
  rw [hset _ rfl, Except_bind_ok, h.cells]
  simp only
  rw [extrude_eq h.wf h.types _ _ hp, Except_bind_ok, extrudeMarks_fold _ _ _ _ h.marks]
  · rw [Except_bind_ok]
    rfl
  · simpa [Mesh.setCell2node, Mesh.new, Dict.keys] using h.names

/-! ### Types of what is extruded -/

theorem addElems_keys {c c' : ElemConn} {t : String} {a : Arr2} {i : Option IndexList} (h : c.addElems t a i = .ok c') :
    ∀ t', t' ∈ c'.tbl.keys ↔ t' ∈ c.tbl.keys ∨ t' = t := by
  unfold ElemConn.addElems at h
  simp only at h
  have key : ∀ (d : Dict String Entry) (e : Entry) t', t' ∈ (d.set t e).keys ↔ t' ∈ d.keys ∨ t' = t := by
    intro d e t'
    rw [Dict.keys_set]
    split
    · rename_i hm
      constructor
      · exact .inl
      · rintro (h | rfl)
        · exact h
        · exact hm
    · simp
  split at h
  · simp only [bind_eq_ok] at h
    obtain ⟨_, _, _, _, _, _, h⟩ := h
    simp only [Except_pure, Except.ok.injEq] at h
    rw [← h]
    exact key _ _
  · simp only [Except.ok.injEq] at h
    rw [← h]
    exact key _ _

/-- Types of an extruded connectivity. -/
theorem extrude_types {c c' : ElemConn} {n : Nat} {k : Int} (h : c.extrude n k = .ok c') :
    ∀ t ∈ c.tbl.keys, ∃ t', extrudedFace.get? t = some t' ∧ t' ∈ c'.tbl.keys := by
  unfold ElemConn.extrude at h
  rw [bind_eq_ok] at h
  obtain ⟨_, _, h⟩ := h
  revert h
  generalize ElemConn.empty = c0
  intro h
  have mono : ∀ (l : List (String × Entry)) (a b : ElemConn), l.foldlM (ElemConn.extrudeStep (n - 1) k) a = .ok b →
      (∀ t ∈ a.tbl.keys, t ∈ b.tbl.keys) ∧ ∀ p ∈ l, ∃ t', extrudedFace.get? p.1 = some t' ∧ t' ∈ b.tbl.keys := by
    intro l
    induction l with
    | nil =>
      intro a b hab
      simp only [List.foldlM_nil, Except_pure, Except.ok.injEq] at hab
      subst hab
      exact ⟨fun t ht => ht, fun p hp => by cases hp⟩
    | cons p l ih =>
      intro a b hab
      rw [List.foldlM_cons, bind_eq_ok] at hab
      obtain ⟨a1, h1, h2⟩ := hab
      obtain ⟨i1, i2⟩ := ih _ _ h2
      unfold ElemConn.extrudeStep at h1
      split at h1
      · cases h1
      · simp only [bind_eq_ok] at h1
        obtain ⟨_, _, _, _, et, het, h1⟩ := h1
        rw [Dict.getE_eq_ok] at het
        have hk := addElems_keys h1
        refine ⟨fun t ht => i1 t ((hk t).2 (.inl ht)), fun q hq => ?_⟩
        rcases List.mem_cons.1 hq with rfl | hq
        · exact ⟨et, het, i1 et ((hk et).2 (.inr rfl))⟩
        · exact i2 q hq
  intro t ht
  obtain ⟨p, hp, rfl⟩ := List.mem_map.1 ht
  exact (mono _ _ _ h).2 p hp

/-- A mesh that is extruded has two planes and cells. -/
theorem extruded_parts {R : Type} [Add R] [Mul R] {so : List Int → List Int} {m m' : Mesh R} {d : R × R × R} {planes : List R}
    {domain : String} (h : m.exportExtruded so d planes domain = .ok m') :
    1 < planes.length ∧ ∃ c c', m.cell2node = some c ∧ c.extrude planes.length m.nnode = .ok c' ∧ m'.cell2node = some c' := by
  unfold Mesh.exportExtruded at h
  simp only [bind_eq_ok] at h
  obtain ⟨_, ha, nd, _, new, _, h⟩ := h
  rw [pyAssert_eq_ok, decide_eq_true_eq] at ha
  refine ⟨ha, ?_⟩
  split at h
  · cases h
  · rename_i c hc
    simp only [bind_eq_ok] at h
    obtain ⟨c', hc', m1, hm1, h⟩ := h
    refine ⟨c, c', hc, hc', ?_⟩
    simp only [Except_pure, Except.ok.injEq] at h
    rw [← h]
    show m1.cell2node = _
    have key : ∀ (l : List (String × Mark)) (a b : Mesh R), l.foldlM (fun (new : Mesh R) (p : String × Mark) => do
        let b ← Mesh.extrudeMark planes.length m.nnode p.2
        return new.addBoco b) a = .ok b → b.cell2node = a.cell2node := by
      intro l
      induction l with
      | nil =>
        intro a b hab
        simp only [List.foldlM_nil, Except_pure, Except.ok.injEq] at hab
        rw [hab]
      | cons p l ih =>
        intro a b hab
        rw [List.foldlM_cons, bind_eq_ok] at hab
        obtain ⟨a1, h1, h2⟩ := hab
        rw [bind_eq_ok] at h1
        obtain ⟨_, _, h1⟩ := h1
        simp only [Except_pure, Except.ok.injEq] at h1
        rw [ih _ _ h2, ← h1]
        rfl
    rw [key _ _ _ hm1]
    rfl

end Cfd
