import Verif.Props.Ic3Round
import Verif.Props.Ic3V4
import Verif.Lemmas.Conn

/-! C60: whatever bytes the IC3 reader accepts, the mesh it returns is consistent. -/

namespace Cfd.Ic3
open Spec Spec.Ic3 ElemConn

theorem length_groups (k n : Nat) (b : Bytes) : (groups k n b).length = n := by
  induction n generalizing b with
  | zero => rfl
  | succ n ih => simp [groups, ih]

theorem readI32_length {file : Bytes} {o : Order} {p : Nat} {n : Int} {l : List Int}
    (h : readI32 file o p n = .ok (some l)) : 0 ≤ n ∧ l.length = n.toNat := by
  unfold readI32 at h
  obtain ⟨k, hk, h⟩ := bind_eq_ok.1 h
  unfold formatCount at hk
  split at hk
  · exact absurd hk (by simp)
  · simp only [Except.ok.injEq] at hk
    simp only [Except_pure, Except.ok.injEq, Option.map_eq_some_iff] at h
    obtain ⟨b, _, rfl⟩ := h
    subst hk
    exact ⟨by omega, by unfold unpackInts; rw [List.length_map, length_groups]⟩

theorem orRaise_ok {α : Type} {e : PyErr} {x : Option α} {a : α} (h : orRaise e x = .ok a) : x = some a := by
  cases x with
  | none => simp [orRaise] at h
  | some b => simp only [orRaise, Except.ok.injEq] at h; rw [h]

theorem check_true {z : Csr} {k : Bool} (hc : z.check = .ok k) : z.check = .ok true := by
  rw [hc]
  unfold Csr.check at hc
  obtain ⟨_, _, hc⟩ := bind_eq_ok.1 hc
  obtain ⟨_, _, hc⟩ := bind_eq_ok.1 hc
  split at hc
  · exact absurd hc (by simp)
  · obtain ⟨_, _, hc⟩ := bind_eq_ok.1 hc
    simp only [Except_pure, Except.ok.injEq] at hc
    rw [← hc]

theorem readNoofa_inv {file : Bytes} {o : Order} {fa noofa : Int} {z : Csr} (h : readNoofa file o fa noofa = .ok z) :
    0 ≤ fa ∧ ∃ nno : List Int, nno.length = fa.toNat ∧ z.index = offsets 0 nno ∧ z.value.length = noofa.toNat ∧
      z.check = .ok true := by
  unfold readNoofa at h
  obtain ⟨⟨hd, p⟩, _, h⟩ := bind_eq_ok.1 h
  obtain ⟨_, _, h⟩ := bind_eq_ok.1 h
  obtain ⟨_, _, h⟩ := bind_eq_ok.1 h
  obtain ⟨r, hr, h⟩ := bind_eq_ok.1 h
  obtain ⟨nno, hn, h⟩ := bind_eq_ok.1 h
  obtain ⟨_, _, h⟩ := bind_eq_ok.1 h
  obtain ⟨_, _, h⟩ := bind_eq_ok.1 h
  obtain ⟨_, _, h⟩ := bind_eq_ok.1 h
  obtain ⟨r2, hr2, h⟩ := bind_eq_ok.1 h
  obtain ⟨v, hv, h⟩ := bind_eq_ok.1 h
  obtain ⟨c, hc, h⟩ := bind_eq_ok.1 h
  simp only [Except_pure, Except.ok.injEq] at h
  subst h
  have e1 := orRaise_ok hn
  have e2 := orRaise_ok hv
  subst e1 e2
  refine ⟨(readI32_length hr).1, nno, (readI32_length hr).2, rfl, (readI32_length hr2).2, ?_⟩
  exact check_true hc

theorem length_pairs : ∀ (n : Nat) (l : List Int), l.length = 2 * n → (pairs l).length = n
  | 0, l, h => by
    have : l = [] := by rw [← List.length_eq_zero_iff]; omega
    subst this; rfl
  | n + 1, a :: b :: t, h => by
    simp only [List.length_cons] at h
    simp only [pairs, List.length_cons, length_pairs n t (by omega)]
  | n + 1, [], h => by simp at h
  | n + 1, [_], h => by simp at h; omega

theorem mem_pairs : ∀ (n : Nat) (l : List Int), l.length = 2 * n → ∀ x, x ∈ l ↔ ∃ q ∈ pairs l, x = q.1 ∨ x = q.2
  | 0, l, h, x => by
    have : l = [] := by rw [← List.length_eq_zero_iff]; omega
    subst this; simp [pairs]
  | n + 1, a :: b :: t, h, x => by
    simp only [List.length_cons] at h
    have ih := mem_pairs n t (by omega) x
    simp only [pairs, List.mem_cons, ih, exists_eq_or_imp, or_assoc]
  | n + 1, [], h, _ => by simp at h
  | n + 1, [_], h, _ => by simp at h; omega

theorem readCvofa_inv {file : Bytes} {o : Order} {fa cv : Int} {rows : List (Int × Int)} {p : Nat}
    (h : readCvofa file o fa cv = .ok (rows, p)) :
    rows.length = fa.toNat ∧ (∀ q ∈ rows, q.1 ≤ cv - 1 ∧ q.2 ≤ cv - 1) ∧ ∃ q ∈ rows, q.1 = cv - 1 ∨ q.2 = cv - 1 := by
  unfold readCvofa at h
  obtain ⟨⟨hd, p⟩, _, h⟩ := bind_eq_ok.1 h
  obtain ⟨_, _, h⟩ := bind_eq_ok.1 h
  obtain ⟨_, _, h⟩ := bind_eq_ok.1 h
  obtain ⟨r, hr, h⟩ := bind_eq_ok.1 h
  obtain ⟨l, hl, h⟩ := bind_eq_ok.1 h
  have e := orRaise_ok hl
  subst e
  have hlen := readI32_length hr
  simp only [orRaise, Except_bind_ok] at h
  split at h
  · exact absurd h (by simp)
  · next mx hmx =>
    obtain ⟨_, _, h⟩ := bind_eq_ok.1 h
    obtain ⟨_, ha, h⟩ := bind_eq_ok.1 h
    simp only [Except_pure, Except.ok.injEq, Prod.mk.injEq] at h
    obtain ⟨rfl, _⟩ := h
    have hmx2 : mx = cv - 1 := by simpa [pyAssert_eq_ok] using ha
    rw [List.max?_eq_some_iff] at hmx
    have h2 : l.length = 2 * fa.toNat := by omega
    refine ⟨length_pairs _ _ h2, ?_, ?_⟩
    · intro q hq
      rw [← hmx2]
      exact ⟨hmx.2 _ ((mem_pairs _ _ h2 _).2 ⟨q, hq, .inl rfl⟩), hmx.2 _ ((mem_pairs _ _ h2 _).2 ⟨q, hq, .inr rfl⟩)⟩
    · obtain ⟨q, hq, hx⟩ := (mem_pairs _ _ h2 _).1 hmx.1
      rw [← hmx2]
      exact ⟨q, hq, hx.imp Eq.symm Eq.symm⟩

/-- A connectivity imported without error has faces of one to four nodes. -/
theorem import_sizes {z : Csr} (S : List Int) : ∀ (c c' : ElemConn), S.foldlM (importStep z) c = .ok c' →
    ∀ n ∈ S, 1 ≤ n ∧ n ≤ 4 := by
  induction S with
  | nil => simp
  | cons n S ih =>
    intro c c' h
    rw [List.foldlM_cons] at h
    obtain ⟨d, hd, h⟩ := bind_eq_ok.1 h
    have h1 : 1 ≤ n ∧ n ≤ 4 := by
      by_contra hn
      unfold importStep at hd
      obtain ⟨t, ht, _⟩ := bind_eq_ok.1 hd
      have := faceName_none hn
      unfold faceName at this
      simp [Dict.getE, this] at ht
    intro m hm
    rcases List.mem_cons.1 hm with rfl | hm
    · exact h1
    · exact ih d c' h m hm

theorem sum_take_le (l : List Int) (h : ∀ n ∈ l, 0 ≤ n) (k : Nat) : (l.take k).sum ≤ (l.take (k + 1)).sum := by
  by_cases hk : k < l.length
  · rw [List.take_succ_eq_append_getElem hk, List.sum_append]
    have := h _ (List.getElem_mem hk)
    simp only [List.sum_cons, List.sum_nil]; omega
  · rw [List.take_of_length_le (by omega), List.take_of_length_le (by omega)]

theorem csrWF_of_check {z : Csr} {nno : List Int} (hi : z.index = offsets 0 nno) (hn : ∀ n ∈ nno, 0 ≤ n)
    (hc : z.check = .ok true) : CsrWF z nno.length := by
  have hd : ∀ k, k ≤ nno.length → z.index.getD k 0 = (nno.take k).sum := by
    intro k hk; rw [hi, offsets_getD 0 nno k hk]; omega
  refine ⟨by rw [hi, offsets_length], by rw [hd 0 (by omega)]; rfl, ?_, ?_⟩
  · intro k hk
    rw [hd k (by omega), hd (k + 1) (by omega)]
    exact sum_take_le nno hn k
  · rw [hd _ (le_refl _), List.take_length]
    unfold Csr.check at hc
    obtain ⟨_, _, hc⟩ := bind_eq_ok.1 hc
    obtain ⟨_, _, hc⟩ := bind_eq_ok.1 hc
    split at hc
    · exact absurd hc (by simp)
    · next m hm =>
      obtain ⟨_, ha, hc⟩ := bind_eq_ok.1 hc
      have hm2 : m = (z.value.length : Int) := by simpa [pyAssert_eq_ok] using ha
      rw [hi, List.max?_eq_some_iff] at hm
      have h1 := offsets_mem_le nno hn 0 m hm.1
      have h2 : nno.sum ∈ offsets 0 nno := by
        have := offsets_getElem? 0 nno nno.length (le_refl _)
        rw [List.take_length] at this
        exact List.mem_of_getElem? (by rw [this]; simp)
      have h3 := hm.2 _ h2
      omega

theorem readConnectivity_inv {integ : Bool} {file : Bytes} {o : Order} {m : RMesh}
    (hm : readConnectivity integ file o = .ok m) :
    ∃ (hd : Header) (csr : Csr) (cvofa : List (Int × Int)) (p : Nat) (bocos : List Mark) (npart : Int) (icv : Icv)
      (coords : List (F64 × F64 × F64)), readNoofa file o (hd.int 1) (hd.int 3) = .ok csr ∧
      readCvofa file o (hd.int 1) (hd.int 2) = .ok (cvofa, p) ∧
      m = ⟨hd.int 0, hd.int 1, hd.int 2, hd.int 3, csr, cvofa, bocos, npart, icv, coords⟩ := by
  unfold readConnectivity at hm
  obtain ⟨⟨hd, _⟩, _, hm⟩ := bind_eq_ok.1 hm
  simp only at hm
  cases integ with
  | false =>
    simp only [Bool.false_eq_true, if_false] at hm
    obtain ⟨csr, hcsr, hm⟩ := bind_eq_ok.1 hm
    obtain ⟨⟨cvofa, p⟩, hcv, hm⟩ := bind_eq_ok.1 hm
    obtain ⟨bocos, _, hm⟩ := bind_eq_ok.1 hm
    obtain ⟨⟨npart, icv⟩, _, hm⟩ := bind_eq_ok.1 hm
    obtain ⟨coords, _, hm⟩ := bind_eq_ok.1 hm
    simp only [Except_pure, Except.ok.injEq] at hm
    exact ⟨hd, csr, cvofa, p, bocos, npart, icv, coords, hcsr, hcv, hm.symm⟩
  | true =>
    simp only [if_true] at hm
    obtain ⟨_, _, hm⟩ := bind_eq_ok.1 hm
    obtain ⟨csr, hcsr, hm⟩ := bind_eq_ok.1 hm
    obtain ⟨⟨cvofa, p⟩, hcv, hm⟩ := bind_eq_ok.1 hm
    obtain ⟨bocos, _, hm⟩ := bind_eq_ok.1 hm
    obtain ⟨⟨npart, icv⟩, _, hm⟩ := bind_eq_ok.1 hm
    obtain ⟨coords, _, hm⟩ := bind_eq_ok.1 hm
    simp only [Except_pure, Except.ok.injEq] at hm
    exact ⟨hd, csr, cvofa, p, bocos, npart, icv, coords, hcsr, hcv, hm.symm⟩

/-- What is common to the readers: the mesh made of a checked compressed connectivity, a table of cells and points, with
the numbers that were read. -/
theorem export_values {csr : Csr} {nno : List Int} {cvofa : List (Int × Int)} {bocos : List Mark}
    {coords : List (F64 × F64 × F64)} {cv no : Int} {m1 m2 m3 : Mesh F64} {c : ElemConn}
    (hi : csr.index = offsets 0 nno) (hck : csr.check = .ok true) (hll : nno.length = cvofa.length)
    (hle : ∀ q ∈ cvofa, q.1 ≤ cv - 1 ∧ q.2 ≤ cv - 1) (hlast : ∃ q ∈ cvofa, q.1 = cv - 1 ∨ q.2 = cv - 1)
    (h1 : (Mesh.new cv.toNat no.toNat : Mesh F64).setCoordsNd coords = .ok m1)
    (hc : ElemConn.empty.importCompressed csr = .ok c)
    (h2 : m1.addFaces "mixed" c (some (some cvofa)) = .ok m2) (h3 : m3 = bocos.foldl Mesh.addBoco m2) :
    ∃ (fs : FaceSet) (l : List Face) (x y z : List F64), m3.faces = [("mixed", fs)] ∧ IsFaces fs l ∧
      m3.nface = l.length ∧ (∀ a ∈ l, 1 ≤ a.1.length ∧ a.1.length ≤ 4) ∧
      (∀ a ∈ l, a.2.1 < m3.ncell ∧ a.2.2 < m3.ncell) ∧
      (0 < m3.ncell → ∃ a ∈ l, a.2.1 = (m3.ncell : Int) - 1 ∨ a.2.2 = (m3.ncell : Int) - 1) ∧
      m3.coords = some (x, y, z) ∧ x.length = m3.nnode ∧ y.length = m3.nnode ∧ z.length = m3.nnode ∧
      (m3.bocos.keys.Nodup) ∧ (∀ a ∈ l, ∀ n ∈ a.1, n ∈ csr.value) ∧ l.map (·.2) = cvofa := by
  -- sizes of the faces
  have hsz : ∀ n ∈ nno, 1 ≤ n ∧ n ≤ 4 := by
    intro n hn
    unfold importCompressed at hc
    refine import_sizes _ _ _ hc n ?_
    rw [mem_npUnique, hi, diffs_offsets]; exact hn
  have hwf : CsrWF csr nno.length := csrWF_of_check hi (fun n hn => by have := hsz n hn; omega) hck
  have hsl := csrOf_slices hwf
  have hlen : ∀ k < nno.length, 1 ≤ (csrSlice csr k).length ∧ (csrSlice csr k).length ≤ 4 := by
    intro k hk
    have e : (offsets 0 (((List.range nno.length).map (csrSlice csr)).map fun f => (f.length : Int))) = offsets 0 nno := by
      rw [← hi]; exact congrArg Csr.index hsl
    have e2 := congrArg diffs e
    rw [diffs_offsets, diffs_offsets] at e2
    have e3 : ((csrSlice csr k).length : Int) ∈ nno := by
      rw [← e2]
      exact List.mem_map_of_mem (List.mem_map_of_mem (List.mem_range.2 hk))
    have := hsz _ e3
    omega
  -- the list of faces
  have hfst : (((List.range nno.length).map (csrSlice csr)).zip cvofa).map (·.1) = (List.range nno.length).map (csrSlice csr) :=
    List.map_fst_zip (by simp; omega)
  have hsnd : (((List.range nno.length).map (csrSlice csr)).zip cvofa).map (·.2) = cvofa :=
    List.map_snd_zip (by simp; omega)
  have hn4 : ∀ a ∈ ((List.range nno.length).map (csrSlice csr)).zip cvofa, 1 ≤ a.1.length ∧ a.1.length ≤ 4 := by
    intro a ha
    have : a.1 ∈ (List.range nno.length).map (csrSlice csr) := by rw [← hfst]; exact List.mem_map_of_mem ha
    obtain ⟨k, hk, e⟩ := List.mem_map.1 this
    rw [← e]
    exact hlen k (List.mem_range.1 hk)
  obtain ⟨hF, hN⟩ := isFaces_exported (c := c) hn4 (by rw [hfst, hsl]; exact hc)
  rw [hsnd] at hF
  unfold Mesh.setCoordsNd at h1
  obtain ⟨_, ha, h1⟩ := bind_eq_ok.1 h1
  have hcl : coords.length = no.toNat := of_decide_eq_true (pyAssert_eq_ok.1 ha)
  simp only [Except_pure, Except.ok.injEq] at h1
  subst h1
  subst h3
  have h3 : m2 = { (Mesh.new cv.toNat no.toNat : Mesh F64) with
      coords := some (coords.map (·.1), coords.map (·.2.1), coords.map (·.2.2))
      faces := [("mixed", ⟨c, some (some cvofa)⟩)], nface := c.nelem } := by
    unfold Mesh.addFaces at h2
    rw [if_pos (by simp [Mesh.faceKinds])] at h2
    simp only [Except.ok.injEq] at h2
    rw [← h2]
    simp [Mesh.new, Dict.set, Mesh.totalFaces]
  subst h3
  have hm : ∀ a ∈ ((List.range nno.length).map (csrSlice csr)).zip cvofa, a.2 ∈ cvofa := by
    intro a ha
    rw [← hsnd]; exact List.mem_map_of_mem ha
  refine ⟨_, _, coords.map (·.1), coords.map (·.2.1), coords.map (·.2.2), ?_, hF, ?_, hn4, ?_, ?_, ?_, ?_, ?_, ?_, ?_,
    fun a ha => ?_, hsnd⟩
  · rw [foldl_addBoco]
  · rw [foldl_addBoco]; exact hN
  · intro a ha
    have := hle _ (hm a ha)
    rw [foldl_addBoco]
    simp only [Mesh.new]
    omega
  · rw [foldl_addBoco]
    simp only [Mesh.new]
    intro hp
    obtain ⟨q, hq, he⟩ := hlast
    have : q ∈ (((List.range nno.length).map (csrSlice csr)).zip cvofa).map (·.2) := by rw [hsnd]; exact hq
    obtain ⟨a, ha, rfl⟩ := List.mem_map.1 this
    exact ⟨a, ha, by omega⟩
  · rw [foldl_addBoco]
  · rw [foldl_addBoco]; simpa [Mesh.new] using hcl
  · rw [foldl_addBoco]; simpa [Mesh.new] using hcl
  · rw [foldl_addBoco]; simpa [Mesh.new] using hcl
  · rw [foldl_addBoco]
    simp only [Mesh.new]
    have : ∀ (l : List Mark) (d : Dict String Mark), d.keys.Nodup → (l.foldl (fun (d : Dict String Mark) b => d.set b.name b) d).keys.Nodup := by
      intro l
      induction l with
      | nil => intro d hd; exact hd
      | cons a t ih => intro d hd; exact ih _ (Dict.nodup_keys_set hd _ _)
    exact this _ _ (by simp [Dict.keys])
  · intro n hn
    have h1 : a.1 ∈ (List.range nno.length).map (csrSlice csr) := by rw [← hfst]; exact List.mem_map_of_mem ha
    obtain ⟨k, _, e⟩ := List.mem_map.1 h1
    rw [← e] at hn
    exact List.mem_of_mem_drop (List.mem_of_mem_take hn)

/-- What is common to the readers: the mesh made of a checked compressed connectivity, a table of cells and points. -/
theorem export_consistent {csr : Csr} {nno : List Int} {cvofa : List (Int × Int)} {bocos : List Mark}
    {coords : List (F64 × F64 × F64)} {cv no : Int} {m1 m2 m3 : Mesh F64} {c : ElemConn}
    (hi : csr.index = offsets 0 nno) (hck : csr.check = .ok true) (hll : nno.length = cvofa.length)
    (hle : ∀ q ∈ cvofa, q.1 ≤ cv - 1 ∧ q.2 ≤ cv - 1) (hlast : ∃ q ∈ cvofa, q.1 = cv - 1 ∨ q.2 = cv - 1)
    (h1 : (Mesh.new cv.toNat no.toNat : Mesh F64).setCoordsNd coords = .ok m1)
    (hc : ElemConn.empty.importCompressed csr = .ok c)
    (h2 : m1.addFaces "mixed" c (some (some cvofa)) = .ok m2) (h3 : m3 = bocos.foldl Mesh.addBoco m2) :
    ∃ (fs : FaceSet) (l : List Face) (x y z : List F64), m3.faces = [("mixed", fs)] ∧ IsFaces fs l ∧
      m3.nface = l.length ∧ (∀ a ∈ l, 1 ≤ a.1.length ∧ a.1.length ≤ 4) ∧
      (∀ a ∈ l, a.2.1 < m3.ncell ∧ a.2.2 < m3.ncell) ∧
      (0 < m3.ncell → ∃ a ∈ l, a.2.1 = (m3.ncell : Int) - 1 ∨ a.2.2 = (m3.ncell : Int) - 1) ∧
      m3.coords = some (x, y, z) ∧ x.length = m3.nnode ∧ y.length = m3.nnode ∧ z.length = m3.nnode ∧
      (m3.bocos.keys.Nodup) := by
  obtain ⟨fs, l, x, y, z, h⟩ := export_values hi hck hll hle hlast h1 hc h2 h3
  exact ⟨fs, l, x, y, z, h.1, h.2.1, h.2.2.1, h.2.2.2.1, h.2.2.2.2.1, h.2.2.2.2.2.1, h.2.2.2.2.2.2.1, h.2.2.2.2.2.2.2.1,
    h.2.2.2.2.2.2.2.2.1, h.2.2.2.2.2.2.2.2.2.1, h.2.2.2.2.2.2.2.2.2.2.1⟩

/-- C60: for every byte string, when the reader returns a mesh: its faces, of one to four nodes, are numbered from
0 and each has its row of two cells; no cell number is above the last one, which is used; there is one point per
node; mark names are distinct. -/
theorem C60_consistent (integ : Bool) (file : Bytes) (f : FullMesh) (h : readIc3 integ file = .ok f) :
    ∃ (fs : FaceSet) (l : List Face) (x y z : List F64), f.mesh.faces = [("mixed", fs)] ∧ IsFaces fs l ∧
      f.mesh.nface = l.length ∧ (∀ a ∈ l, 1 ≤ a.1.length ∧ a.1.length ≤ 4) ∧
      (∀ a ∈ l, a.2.1 < f.mesh.ncell ∧ a.2.2 < f.mesh.ncell) ∧
      (0 < f.mesh.ncell → ∃ a ∈ l, a.2.1 = (f.mesh.ncell : Int) - 1 ∨ a.2.2 = (f.mesh.ncell : Int) - 1) ∧
      f.mesh.coords = some (x, y, z) ∧ x.length = f.mesh.nnode ∧ y.length = f.mesh.nnode ∧ z.length = f.mesh.nnode ∧
      (f.mesh.bocos.keys.Nodup) := by
  unfold readIc3 readData at h
  obtain ⟨r, hr, h⟩ := bind_eq_ok.1 h
  obtain ⟨⟨o, ver⟩, _, hr⟩ := bind_eq_ok.1 hr
  obtain ⟨m, hm, hr⟩ := bind_eq_ok.1 hr
  obtain ⟨sim, _, hr⟩ := bind_eq_ok.1 hr
  obtain ⟨vars, _, hr⟩ := bind_eq_ok.1 hr
  simp only [Except_pure, Except.ok.injEq] at hr
  subst hr
  obtain ⟨hd, csr, cvofa, p, bocos, npart, icv, coords, hcsr, hcv, rfl⟩ := readConnectivity_inv hm
  unfold exportMesh at h
  simp only at h
  obtain ⟨m1, h1, h⟩ := bind_eq_ok.1 h
  obtain ⟨c, hc, h⟩ := bind_eq_ok.1 h
  obtain ⟨m2, h2, h⟩ := bind_eq_ok.1 h
  simp only [Except_pure, Except.ok.injEq] at h
  subst h
  obtain ⟨hfa, nno, hl, hi, _, hck⟩ := readNoofa_inv hcsr
  obtain ⟨hrl, hle, hlast⟩ := readCvofa_inv hcv
  exact export_consistent hi hck (by omega) hle hlast h1 hc h2 rfl

-- the file written for `twoTetra` is read
example : (reread .v3 twoTetra).isSome = true := by decide +kernel

/-- The file written for `twoTetra` meets the hypothesis. -/
example : ∃ b f, writeIc3 cgnsElem2faces id .little .big .v3 noConv twoTetra = (some b, .ok ()) ∧
    readIc3 false b = .ok f ∧ f.mesh.bocos.keys.Nodup := by
  obtain ⟨b, hb⟩ := twoTetra_written .big .v3
  obtain ⟨f, hf, -⟩ := C28_mesh_round_trip _ _ _ .big .v3 _ _ b _ _ twoTetra_names twoTetra_complete hb twoTetra_storable
    (twoTetra_data .v3) false
  obtain ⟨-, -, -, -, -, -, -, -, -, -, -, -, -, -, -, h⟩ := C60_consistent false b f hf
  exact ⟨b, f, hb, hf, h⟩

/-- C60: node numbers are not checked: a face of a mesh of four nodes that refers to node 9 is read (with the
integrity check). -/
theorem C60_node_numbers_refuted :
    (reread .v2 { tetra with mesh := { tetra.mesh with
      faces := [("mixed", ⟨⟨4, [("tri3", ⟨.range 0 3, ⟨some 3, [[0, 2, 1], [0, 1, 9], [1, 2, 3], [0, 3, 2]]⟩⟩)]⟩,
        some (some [(0, -1), (0, -1), (0, -1), (0, -1)])⟩)] } }).map
      (fun g => (g.mesh.nnode, (elements ((g.mesh.faces.get? "mixed").getD ⟨ElemConn.empty, none⟩).f2n).map (·.2))) =
      some (4, [(0, [0, 2, 1]), (1, [0, 1, 9]), (2, [1, 2, 3]), (3, [0, 3, 2])]) := by decide +kernel

/-! ## V4 -/

/-- C60 for the V4 reader, whatever the content of the file: the mesh returned is consistent in the same way, when the
file has as many face sizes as the attribute `fa_count` says. -/
theorem C60_v4 (x : MeshFile) (s : Option SolFile) (f : FullMesh) (hx : x.noofaI.length = x.fa)
    (h : readV4 x s = .ok f) :
    ∃ (fs : FaceSet) (l : List Face) (x y z : List F64), f.mesh.faces = [("mixed", fs)] ∧ IsFaces fs l ∧
      f.mesh.nface = l.length ∧ (∀ a ∈ l, 1 ≤ a.1.length ∧ a.1.length ≤ 4) ∧
      (∀ a ∈ l, a.2.1 < f.mesh.ncell ∧ a.2.2 < f.mesh.ncell) ∧
      (0 < f.mesh.ncell → ∃ a ∈ l, a.2.1 = (f.mesh.ncell : Int) - 1 ∨ a.2.2 = (f.mesh.ncell : Int) - 1) ∧
      f.mesh.coords = some (x, y, z) ∧ x.length = f.mesh.nnode ∧ y.length = f.mesh.nnode ∧ z.length = f.mesh.nnode ∧
      (f.mesh.bocos.keys.Nodup) := by
  unfold readV4 at h
  obtain ⟨r, hr, h⟩ := bind_eq_ok.1 h
  have hex : ∃ cells sim, exportV4 r cells sim = .ok f := by
    cases s with
    | none => exact ⟨_, _, h⟩
    | some s =>
      simp only at h
      obtain ⟨cells, _, h⟩ := bind_eq_ok.1 h
      exact ⟨_, _, h⟩
  obtain ⟨cells, sim, he⟩ := hex
  unfold readMeshV4 at hr
  obtain ⟨csr, hcsr, hr⟩ := bind_eq_ok.1 hr
  obtain ⟨cvofa, hcv, hr⟩ := bind_eq_ok.1 hr
  obtain ⟨bocos, _, hr⟩ := bind_eq_ok.1 hr
  split at hr
  · cases hr
  simp only [Except_pure, Except.ok.injEq] at hr
  subst hr
  unfold exportV4 at he
  simp only at he
  obtain ⟨m1, h1, he⟩ := bind_eq_ok.1 he
  obtain ⟨c, hc, he⟩ := bind_eq_ok.1 he
  obtain ⟨m2, h2, he⟩ := bind_eq_ok.1 he
  simp only [Except_pure, Except.ok.injEq] at he
  subst he
  unfold readNoofaV4 at hcsr
  obtain ⟨_, _, hcsr⟩ := bind_eq_ok.1 hcsr
  obtain ⟨_, _, hcsr⟩ := bind_eq_ok.1 hcsr
  obtain ⟨_, _, hcsr⟩ := bind_eq_ok.1 hcsr
  obtain ⟨k, hk, hcsr⟩ := bind_eq_ok.1 hcsr
  simp only [Except_pure, Except.ok.injEq] at hcsr
  subst hcsr
  unfold readCvofaV4 at hcv
  split at hcv
  · cases hcv
  next hlen =>
  have hlen : x.cvofa.length = 2 * x.fa := by omega
  split at hcv
  · cases hcv
  next mx hmx =>
  obtain ⟨_, _, hcv⟩ := bind_eq_ok.1 hcv
  obtain ⟨_, ha, hcv⟩ := bind_eq_ok.1 hcv
  simp only [Except_pure, Except.ok.injEq] at hcv
  subst hcv
  have hmx2 : mx = (x.cv : Int) - 1 := by simpa [pyAssert_eq_ok] using ha
  rw [List.max?_eq_some_iff] at hmx
  refine export_consistent (cv := x.cv) (no := x.no) rfl (check_true hk) (by rw [length_pairs _ _ hlen, hx]) ?_ ?_
    (by simpa using h1) hc h2 rfl
  · intro q hq
    rw [← hmx2]
    exact ⟨hmx.2 _ ((mem_pairs _ _ hlen _).2 ⟨q, hq, .inl rfl⟩), hmx.2 _ ((mem_pairs _ _ hlen _).2 ⟨q, hq, .inr rfl⟩)⟩
  · obtain ⟨q, hq, hx⟩ := (mem_pairs _ _ hlen _).1 hmx.1
    rw [← hmx2]
    exact ⟨q, hq, hx.imp Eq.symm Eq.symm⟩

-- the V4 file written for `twoTetraSol` satisfies the hypothesis and is read
example : ((writeV4 cgnsElem2faces id strictH5 noConv twoTetraSol true).toOption.map fun p =>
    (decide (p.1.noofaI.length = p.1.fa), (readV4 p.1 p.2).toOption.isSome)) = some (true, true) := by decide +kernel

/-- A content with one face. -/
example : ∃ f, readV4 ⟨4, 1, 1, List.replicate 12 0, [], [0, -1], [3], [0, 1, 2], [], [0], [], []⟩ none = .ok f ∧
    f.mesh.bocos.keys.Nodup := by
  obtain ⟨f, hf⟩ := exists_of_isOk
    (x := readV4 ⟨4, 1, 1, List.replicate 12 0, [], [0, -1], [3], [0, 1, 2], [], [0], [], []⟩ none) (by decide +kernel)
  obtain ⟨-, -, -, -, -, -, -, -, -, -, -, -, -, -, -, h⟩ := C60_v4 _ _ f rfl hf
  exact ⟨f, hf, h⟩

set_option synthInstance.maxSize 2000 in
/-- C60: the V4 reader does not compare the number of face sizes with `fa_count`: this content has two faces and cells
for one face. -/
theorem C60_v4_sizes_refuted :
    (readV4 ⟨4, 1, 1, List.replicate 12 0, [], [0, -1], [3, 3], [0, 1, 2, 0, 1, 3], [], [0], [], []⟩ none).toOption.map (fun f => (f.mesh.nface, (f.mesh.faces.get? "mixed").map fun fs => fs.f2c)) =
      some (2, some (some (some [(0, -1)]))) := by decide +kernel

end Cfd.Ic3
