import Verif.Spec.Ic3ForeignContent
import Verif.Lemmas.Ic3ForeignSame
import Verif.Lemmas.Ic3Accepted
import Verif.Lemmas.Ic3Again
import Verif.Props.Ic3Accept

/-! The mesh that is read is the one that the sections tell. -/

namespace Cfd.Ic3
open Spec Spec.Ic3 ElemConn

/-! ## Bytes of what is unpacked -/

theorem flatten_groups (k n : Nat) : ∀ b : Bytes, b.length = k * n → (groups k n b).flatten = b := by
  induction n with
  | zero => intro b h; simp only [groups, List.flatten_nil]; symm; rw [← List.length_eq_zero_iff]; omega
  | succ n ih =>
    intro b h
    rw [Nat.mul_succ] at h
    simp only [groups, List.flatten_cons]
    rw [ih _ (by simp; omega), List.take_append_drop]

theorem ints_unpack (o : Order) {k n : Nat} {b : Bytes} (hk : 0 < k) (h : b.length = k * n) :
    intsBytes o k (unpackInts o k n b) = b := by
  have hg := groups_length_of (k := k) (n := n) (b := b) (by omega)
  unfold intsBytes unpackInts
  rw [List.flatMap_def, List.map_map]
  conv => rhs; rw [← flatten_groups k n b h]
  congr 1
  conv => rhs; rw [← List.map_id (groups k n b)]
  refine List.map_congr_left fun g hm => ?_
  have e := hg g hm
  have := pack_unpackInt o g (by omega)
  rw [packInt_ok_iff, e] at this
  exact this.2.symm

theorem f64s_unpack (o : Order) {n : Nat} {b : Bytes} (h : b.length = 8 * n) : f64sBytes o (unpackF64s o n b) = b := by
  have hg := groups_length_of (k := 8) (n := n) (b := b) (by omega)
  unfold f64sBytes unpackF64s
  rw [List.flatMap_def, List.map_map]
  conv => rhs; rw [← flatten_groups 8 n b h]
  congr 1
  conv => rhs; rw [← List.map_id (groups 8 n b)]
  refine List.map_congr_left fun g hm => ?_
  have e := hg g hm
  have hlt := bytesNat_lt o g
  have hn := natBytes_bytesNat o g
  rw [e] at hlt hn
  show natBytes o 8 (UInt64.ofNat (bytesNat o g)).toNat = g
  rw [UInt64.toNat_ofNat_of_lt' (by simpa using hlt)]
  exact hn

theorem readAt_bytes {file b : Bytes} {p n : Nat} (h : readAt file p n = some b) : b = (file.drop p).take n := by
  unfold readAt at h
  simp only at h
  split at h
  · simpa using h.symm
  · cases h

theorem readI32_bytes {file : Bytes} {o : Order} {p : Nat} {n : Int} {l : List Int}
    (h : readI32 file o p n = .ok (some l)) : intsBytes o 4 l = (file.drop p).take (4 * n.toNat) := by
  unfold readI32 formatCount at h
  split at h
  · cases h
  · simp only [Except_bind_ok, Except_pure, Except.ok.injEq, Option.map_eq_some_iff] at h
    obtain ⟨b, hb, rfl⟩ := h
    rw [ints_unpack o (by decide) (readAt_size hb)]
    exact readAt_bytes hb

theorem readI64_bytes {file : Bytes} {o : Order} {p : Nat} {n : Int} {l : List Int}
    (h : readI64 file o p n = .ok (some l)) : intsBytes o 8 l = (file.drop p).take (8 * n.toNat) ∧
      l.length = n.toNat ∧ ∀ x ∈ l, FitsInt 8 x := by
  unfold readI64 formatCount at h
  split at h
  · cases h
  · simp only [Except_bind_ok, Except_pure, Except.ok.injEq, Option.map_eq_some_iff] at h
    obtain ⟨b, hb, rfl⟩ := h
    have hs := readAt_size hb
    rw [ints_unpack o (by decide) hs]
    exact ⟨readAt_bytes hb, unpackInts_fit (by decide) (by omega)⟩

theorem readF64_bytes {file : Bytes} {o : Order} {p : Nat} {n : Int} {l : List F64}
    (h : readF64 file o p n = .ok (some l)) : f64sBytes o l = (file.drop p).take (8 * n.toNat) ∧ l.length = n.toNat := by
  have h0 := (readF64_count h).2.1 l rfl
  unfold readF64 formatCount at h
  split at h
  · cases h
  · simp only [Except_bind_ok, Except_pure, Except.ok.injEq, Option.map_eq_some_iff] at h
    obtain ⟨b, hb, rfl⟩ := h
    rw [f64s_unpack o (readAt_size hb)]
    exact ⟨readAt_bytes hb, h0⟩

/-! ## Faces -/

theorem req_ok {x : Option Sec} {s : Sec} (h : req x = .ok s) : x = some s := orRaise_ok h

theorem noofaOf_inv {o : Order} {s : Sec} {fa noofa : Int} {z : Csr} (h : noofaOf o s fa noofa = .ok z)
    (h0 : 0 ≤ fa ∧ 0 ≤ noofa) (hz : (s.payload.length : Int) = 4 * fa + 4 * noofa) :
    s.h.int 0 = fa ∧ s.h.int 1 = noofa ∧ ∃ nno : List Int, nno.length = fa.toNat ∧ z.index = offsets 0 nno ∧
      z.check = .ok true ∧ s.payload = intsBytes o 4 nno ++ intsBytes o 4 z.value ∧ ∀ n ∈ z.value, FitsInt 4 n := by
  unfold noofaOf at h
  obtain ⟨_, i1, h⟩ := bind_eq_ok.1 h
  obtain ⟨_, i2, h⟩ := bind_eq_ok.1 h
  obtain ⟨r, hr, h⟩ := bind_eq_ok.1 h
  obtain ⟨nno, hn, h⟩ := bind_eq_ok.1 h
  obtain ⟨_, _, h⟩ := bind_eq_ok.1 h
  obtain ⟨_, _, h⟩ := bind_eq_ok.1 h
  obtain ⟨_, _, h⟩ := bind_eq_ok.1 h
  obtain ⟨r2, hr2, h⟩ := bind_eq_ok.1 h
  obtain ⟨v, hv, h⟩ := bind_eq_ok.1 h
  obtain ⟨c, hc, h⟩ := bind_eq_ok.1 h
  simp only [Except_pure, Except.ok.injEq] at h
  subst h
  have e1 := orRaise_ok hn
  have e2 := orRaise_ok hv
  subst e1 e2
  refine ⟨of_decide_eq_true (pyAssert_eq_ok.1 i1), of_decide_eq_true (pyAssert_eq_ok.1 i2), nno, (readI32_length hr).2, rfl,
    check_true hc, ?_, (readI32_fit hr2).2.2⟩
  show s.payload = intsBytes o 4 nno ++ intsBytes o 4 v
  rw [readI32_bytes hr, readI32_bytes hr2, List.drop_zero,
    List.take_of_length_le (l := List.drop _ _) (by simp; omega), List.take_append_drop]

theorem flat_pairs : ∀ (n : Nat) (l : List Int), l.length = 2 * n → (pairs l).flatMap (fun r => [r.1, r.2]) = l
  | 0, l, h => by
    have : l = [] := by rw [← List.length_eq_zero_iff]; omega
    subst this; rfl
  | n + 1, a :: b :: t, h => by
    simp only [List.length_cons] at h
    simp only [pairs, List.flatMap_cons, flat_pairs n t (by omega), List.cons_append, List.nil_append]
  | n + 1, [], h => by simp at h
  | n + 1, [_], h => by simp at h; omega

theorem flat_triples : ∀ (n : Nat) (l : List F64), l.length = 3 * n →
    (triples l).flatMap (fun r => [r.1, r.2.1, r.2.2]) = l ∧ (triples l).length = n
  | 0, l, h => by
    have : l = [] := by rw [← List.length_eq_zero_iff]; omega
    subst this; exact ⟨rfl, rfl⟩
  | n + 1, a :: b :: c :: t, h => by
    simp only [List.length_cons] at h
    have := flat_triples n t (by omega)
    simp only [triples, List.flatMap_cons, this.1, this.2, List.cons_append, List.nil_append, List.length_cons, and_self]
  | n + 1, [], h => by simp at h
  | n + 1, [_], h => by simp at h; omega
  | n + 1, [_, _], h => by simp at h; omega

theorem cvofaOf_inv {o : Order} {s : Sec} {fa cv : Int} {rows : List (Int × Int)} (h : cvofaOf o s fa cv = .ok rows)
    (hz : (s.payload.length : Int) = 8 * fa) :
    s.h.int 0 = fa ∧ s.h.int 1 = 2 ∧ rows.length = fa.toNat ∧ (∀ q ∈ rows, q.1 ≤ cv - 1 ∧ q.2 ≤ cv - 1) ∧
      (∃ q ∈ rows, q.1 = cv - 1 ∨ q.2 = cv - 1) ∧ s.payload = intsBytes o 4 (rows.flatMap fun r => [r.1, r.2]) ∧
      ∀ q ∈ rows, FitsInt 4 q.1 ∧ FitsInt 4 q.2 := by
  unfold cvofaOf at h
  obtain ⟨_, i1, h⟩ := bind_eq_ok.1 h
  obtain ⟨_, i2, h⟩ := bind_eq_ok.1 h
  obtain ⟨r, hr, h⟩ := bind_eq_ok.1 h
  obtain ⟨l, hl, h⟩ := bind_eq_ok.1 h
  rw [orRaise_ok hl] at hr
  obtain ⟨hlen, hfit⟩ := (readI32_fit hr).2
  split at h
  · cases h
  · next mx hmx =>
    obtain ⟨_, _, h⟩ := bind_eq_ok.1 h
    obtain ⟨_, ha, h⟩ := bind_eq_ok.1 h
    simp only [Except_pure, Except.ok.injEq] at h
    subst h
    have hmx2 : mx = cv - 1 := by simpa [pyAssert_eq_ok] using ha
    rw [List.max?_eq_some_iff] at hmx
    have h2 : l.length = 2 * fa.toNat := by omega
    have hm := mem_pairs _ _ h2
    refine ⟨of_decide_eq_true (pyAssert_eq_ok.1 i1), of_decide_eq_true (pyAssert_eq_ok.1 i2), length_pairs _ _ h2, ?_, ?_, ?_, ?_⟩
    · intro q hq
      rw [← hmx2]
      exact ⟨hmx.2 _ ((hm _).2 ⟨q, hq, .inl rfl⟩), hmx.2 _ ((hm _).2 ⟨q, hq, .inr rfl⟩)⟩
    · obtain ⟨q, hq, hx⟩ := (hm _).1 hmx.1
      rw [← hmx2]
      exact ⟨q, hq, hx.imp Eq.symm Eq.symm⟩
    · rw [flat_pairs _ _ h2, readI32_bytes hr, List.drop_zero, List.take_of_length_le (by omega)]
    · intro q hq
      exact ⟨hfit _ ((hm _).2 ⟨q, hq, .inl rfl⟩), hfit _ ((hm _).2 ⟨q, hq, .inr rfl⟩)⟩

/-- The faces that a checked connectivity gives. -/
theorem import_faces {csr : Csr} {nno : List Int} {cvofa : List (Int × Int)} {c : ElemConn}
    (hi : csr.index = offsets 0 nno) (hck : csr.check = .ok true) (hll : nno.length = cvofa.length)
    (hc : ElemConn.empty.importCompressed csr = .ok c) :
    ∃ faces : List Face, IsFaces ⟨c, some (some cvofa)⟩ faces ∧ c.nelem = faces.length ∧
      (∀ a ∈ faces, 1 ≤ a.1.length ∧ a.1.length ≤ 4) ∧ (faces.map fun a => (a.1.length : Int)) = nno ∧
      (faces.flatMap fun a => a.1) = csr.value ∧ faces.map (·.2) = cvofa := by
  have hsz : ∀ n ∈ nno, 1 ≤ n ∧ n ≤ 4 := by
    intro n hn
    unfold importCompressed at hc
    refine import_sizes _ _ _ hc n ?_
    rw [mem_npUnique, hi, diffs_offsets]; exact hn
  have hwf : CsrWF csr nno.length := csrWF_of_check hi (fun n hn => by have := hsz n hn; omega) hck
  have hsl := csrOf_slices hwf
  have hlens : ((List.range nno.length).map (csrSlice csr)).map (fun f => (f.length : Int)) = nno := by
    have e := congrArg (fun z => diffs (Csr.index z)) hsl
    simp only [csrOf] at e
    rw [diffs_offsets, hi, diffs_offsets] at e
    exact e
  have hfst : (((List.range nno.length).map (csrSlice csr)).zip cvofa).map (·.1) = (List.range nno.length).map (csrSlice csr) :=
    List.map_fst_zip (by simp; omega)
  have hsnd : (((List.range nno.length).map (csrSlice csr)).zip cvofa).map (·.2) = cvofa :=
    List.map_snd_zip (by simp; omega)
  have hn4 : ∀ a ∈ ((List.range nno.length).map (csrSlice csr)).zip cvofa, 1 ≤ a.1.length ∧ a.1.length ≤ 4 := by
    intro a ha
    have h1 : a.1 ∈ (List.range nno.length).map (csrSlice csr) := by rw [← hfst]; exact List.mem_map_of_mem ha
    have h2 : (a.1.length : Int) ∈ nno := by
      have := List.mem_map_of_mem (f := fun f : List Int => (f.length : Int)) h1
      rw [hlens] at this
      exact this
    have := hsz _ h2
    omega
  obtain ⟨hF, hN⟩ := isFaces_exported (c := c) hn4 (by rw [hfst, hsl]; exact hc)
  rw [hsnd] at hF
  refine ⟨_, hF, hN, hn4, ?_, ?_, hsnd⟩
  · rw [show (fun a : Face => (a.1.length : Int)) = (fun f : List Int => (f.length : Int)) ∘ Prod.fst from rfl, ← List.map_map, hfst, hlens]
  · rw [List.flatMap_def, show (fun a : Face => a.1) = Prod.fst from rfl, hfst]
    exact congrArg Csr.value hsl

theorem coordsOf_inv {o : Order} {s : Sec} {no : Int} {pts : List (F64 × F64 × F64)} (h : coordsOf o s no = .ok pts)
    (h0 : 0 ≤ no) (hz : (s.payload.length : Int) = 24 * no) :
    s.h.int 0 = no ∧ s.h.int 1 = 3 ∧ (pts.length : Int) = no ∧
      s.payload = f64sBytes o (pts.flatMap fun p => [p.1, p.2.1, p.2.2]) := by
  unfold coordsOf at h
  obtain ⟨_, i1, h⟩ := bind_eq_ok.1 h
  obtain ⟨_, i2, h⟩ := bind_eq_ok.1 h
  obtain ⟨r, hr, h⟩ := bind_eq_ok.1 h
  obtain ⟨l, hl, h⟩ := bind_eq_ok.1 h
  rw [orRaise_ok hl] at hr
  simp only [Except_pure, Except.ok.injEq] at h
  subst h
  obtain ⟨hb, hlen⟩ := readF64_bytes hr
  obtain ⟨t1, t2⟩ := flat_triples no.toNat l (by omega)
  refine ⟨of_decide_eq_true (pyAssert_eq_ok.1 i1), of_decide_eq_true (pyAssert_eq_ok.1 i2), by omega, ?_⟩
  rw [t1, hb, List.drop_zero, List.take_of_length_le (by omega)]

theorem partOf_inv {o : Order} {s : Sec} {cv n : Int} {icv : Icv} (h : partOf o s cv = .ok (n, icv))
    (h0 : 0 ≤ cv) (hz : (s.payload.length : Int) = 4 * cv) :
    s.h.int 1 = n ∧ ∃ q : List Int, icv = .arr q ∧ (q.length : Int) = cv ∧ s.payload = intsBytes o 4 q ∧ ∀ x ∈ q, FitsInt 4 x := by
  unfold partOf at h
  obtain ⟨r, hr, h⟩ := bind_eq_ok.1 h
  simp only [Except_pure, Except.ok.injEq, Prod.mk.injEq] at h
  refine ⟨h.1, ?_⟩
  cases r with
  | none =>
    exfalso
    unfold readI32 formatCount readAt at hr
    rw [if_neg (by omega), Except_bind_ok] at hr
    simp only [List.drop_zero, Except_pure, Except.ok.injEq, Option.map_eq_none_iff] at hr
    rw [if_pos (by rw [List.length_take]; omega)] at hr
    cases hr
  | some q =>
    obtain ⟨_, h2, h3⟩ := readI32_fit hr
    refine ⟨q, h.2.symm, by omega, ?_, h3⟩
    rw [readI32_bytes hr, List.drop_zero, List.take_of_length_le (by omega)]

end Cfd.Ic3
