import Verif.Lemmas.Ic3ForeignSame
import Verif.Lemmas.Ic3Round

/-! The files of the library are made of sections with the announced sizes. -/

namespace Cfd.Ic3
open Spec Spec.Ic3

variable {v : Ver} {cv : Conv} {w : WState} {o : Order}

theorem fileBytes_eq : fileBytes o v cv w = fileOf o v.num (bodySecs o v cv w) eofSec.h [] := by
  unfold fileBytes fileOf
  rw [show magic = 123581321 from rfl, show eofSec.bytes o = hdrBytes o eofSec.h ++ [] from rfl]

theorem isEnd_eof : IsEnd eofSec.h := ⟨(eof_ok .little .little).2.header, .inl rfl⟩

theorem counts_written : countsOf (bodySecs o v cv w) = ⟨w.nno, w.nfa, w.ncv, w.noofaV.length⟩ := by
  rw [bodySecs_eq]
  have : first 10 (cntSec w :: (checkSecs o v w ++ noofaSec o w :: cvofaSec o w ::
    (w.bocos.map zoneSec ++ internalSec w :: partSec o w :: xnoSec o w :: tailSecs o v cv w))) = some (cntSec w) := rfl
  unfold countsOf
  rw [this]
  rfl

theorem dofs_cellInts {i2 i3 : List Int} {n : String} {i : Int} {r : List F64} {p : Bytes} (hd : 1 ≤ WState.dof v w) :
    dofs v.num (sec n i (cellInts v w i2 i3) r p).h = WState.dof v w :=
  (ndofOf_dofs (cellInts_ndof hd)).symm

theorem size_of_scalar {a : NpArr} {n : Nat} (h : Scalar a = true) (hg : GoodArr n a) : a.size = n := by
  unfold Scalar at h
  rcases hg.1 with e | e | e <;> rw [e] at h <;> simpa using h

theorem size_of_vector {a : NpArr} {n : Nat} (h : a.shape.length = 2) (hg : GoodArr n a) : a.size = n * 3 := by
  rcases hg.1 with e | e | e
  · rw [e] at h; simp at h
  · rw [hg.2, e]; simp
  · rw [e] at h; simp at h

theorem size_of_tensor {a : NpArr} {n : Nat} (h : a.shape.length = 3) (hg : GoodArr n a) : a.size = n * 9 := by
  rcases hg.1 with e | e | e
  · rw [e] at h; simp at h
  · rw [e] at h; simp at h
  · rw [hg.2, e]; simp

theorem length_pyRange_nat (n : Nat) : (pyRange 0 n).length = n := by simp

theorem room_scalar {ver : Int} {c : Counts} {h : Header} (hid : h.id ∈ [(32 : Int), 34, 24, 42, 45]) :
    room ver c h = (if h.int 0 = c.no then some (8 * c.no) else if h.int 0 = c.fa then some (8 * c.fa)
      else if h.int 0 = c.cv then some (8 * (dofs ver h * c.cv)) else none) := by
  simp only [List.mem_cons, List.not_mem_nil, or_false] at hid
  unfold room
  rcases hid with e | e | e | e | e <;> rw [e] <;> rfl

theorem room_vector {ver : Int} {c : Counts} {h : Header} (hid : h.id ∈ [(33 : Int), 25, 43]) :
    room ver c h = (if h.int 0 = c.no then some (24 * c.no) else if h.int 0 = c.fa then some (24 * c.fa)
      else if h.int 0 = c.cv then some (24 * (dofs ver h * c.cv)) else none) := by
  simp only [List.mem_cons, List.not_mem_nil, or_false] at hid
  unfold room
  rcases hid with e | e | e <;> rw [e] <;> rfl

theorem room_tensor {ver : Int} {c : Counts} {h : Header} (hid : h.id = 44) :
    room ver c h = (if h.int 0 = c.cv then some (72 * (dofs ver h * c.cv)) else none) := by
  unfold room
  rw [hid]; rfl

theorem sized_vars (hd : DataOK v w) (hrn : ∀ p ∈ w.nodes, Scalar p.2 = true → Ready v p.2)
    (hrc : ∀ p ∈ w.cells.data, Scalar p.2 = true → Ready v p.2) :
    ∀ s ∈ varSecs o v cv w, Sized v.num ⟨w.nno, w.nfa, w.ncv, w.noofaV.length⟩ s := by
  intro s hs
  rw [varSecs_eq] at hs
  simp only [List.mem_append, List.mem_map, or_assoc] at hs
  rcases hs with ⟨p, hp, rfl⟩ | ⟨p, hp, rfl⟩ | ⟨p, hp, rfl⟩ | ⟨p, hp, rfl⟩ | ⟨p, hp, rfl⟩
  · obtain ⟨hm, hsc⟩ := List.mem_filter.1 hp
    intro n hn
    rw [room_scalar] at hn
    · rw [if_pos (by show (sec _ _ _ _ _).h.int 0 = _; rw [sec_int _ _ _ _ _ 0 (by simp)]; rfl)] at hn
      simp only [Option.some.injEq] at hn
      rw [← hn]
      simp only [nodeScSec, sec_payload, scPay_length (hrn p hm hsc), size_of_scalar hsc (hd.nodes p hm)]
      omega
    · show scId v cNoD1 cNoII1 p.2 ∈ _
      unfold scId
      cases v
      · simp only; decide
      · simp only; split <;> decide
  · obtain ⟨hm, hsc⟩ := List.mem_filter.1 hp
    have hsc := of_decide_eq_true hsc
    intro n hn
    rw [room_vector (by show cNoD3 ∈ _; decide)] at hn
    rw [if_pos (by show (sec _ _ _ _ _).h.int 0 = _; rw [sec_int _ _ _ _ _ 0 (by simp)]; rfl)] at hn
    simp only [Option.some.injEq] at hn
    rw [← hn]
    simp only [nodeVecSec, sec_payload, length_f64sBytes, doubles_length, size_of_vector hsc (hd.nodes p hm)]
    omega
  · obtain ⟨hm, hsc⟩ := List.mem_filter.1 hp
    obtain ⟨c0, c1, c2, c3⟩ := hd.someCell (by intro e; rw [e] at hm; simp at hm)
    have hi : (cellScSec o v cv w p).h.int 0 = w.ncv := cellInts_zero
    have hdof : dofs v.num (cellScSec o v cv w p).h = WState.dof v w := dofs_cellInts c1
    intro n hn
    rw [room_scalar] at hn
    · simp only [hi, hdof] at hn
      rw [if_neg (by omega), if_neg (by omega), if_pos trivial] at hn
      simp only [Option.some.injEq] at hn
      rw [← hn]
      have : 0 < WState.dof v w * w.ncv := Int.mul_pos (by omega) (by omega)
      simp only [cellScSec, sec_payload, scPay_length (hrc p hm hsc), size_of_scalar hsc (hd.cells p hm)]
      omega
    · show scId v cCvD1 cCvII1 p.2 ∈ _
      unfold scId
      cases v
      · simp only; decide
      · simp only; split <;> decide
  · obtain ⟨hm, hsc⟩ := List.mem_filter.1 hp
    have hsc := of_decide_eq_true hsc
    obtain ⟨c0, c1, c2, c3⟩ := hd.someCell (by intro e; rw [e] at hm; simp at hm)
    have hi : (cellVecSec o v cv w p).h.int 0 = w.ncv := cellInts_zero
    have hdof : dofs v.num (cellVecSec o v cv w p).h = WState.dof v w := dofs_cellInts c1
    intro n hn
    rw [room_vector (by show cCvD3 ∈ _; decide)] at hn
    simp only [hi, hdof] at hn
    rw [if_neg (by omega), if_neg (by omega), if_pos trivial] at hn
    simp only [Option.some.injEq] at hn
    rw [← hn]
    have : 0 < WState.dof v w * w.ncv := Int.mul_pos (by omega) (by omega)
    simp only [cellVecSec, sec_payload, length_f64sBytes, doubles_length, size_of_vector hsc (hd.cells p hm)]
    omega
  · obtain ⟨hm, hsc⟩ := List.mem_filter.1 hp
    have hsc := of_decide_eq_true hsc
    obtain ⟨c0, c1, c2, c3⟩ := hd.someCell (by intro e; rw [e] at hm; simp at hm)
    have hi : (cellTenSec o v cv w p).h.int 0 = w.ncv := cellInts_zero
    have hdof : dofs v.num (cellTenSec o v cv w p).h = WState.dof v w := dofs_cellInts c1
    intro n hn
    rw [room_tensor (by rfl)] at hn
    simp only [hi, hdof] at hn
    rw [if_pos trivial] at hn
    simp only [Option.some.injEq] at hn
    rw [← hn]
    have : 0 < WState.dof v w * w.ncv := Int.mul_pos (by omega) (by omega)
    simp only [cellTenSec, sec_payload, length_f64sBytes, doubles_length, size_of_tensor hsc (hd.cells p hm)]
    omega

theorem sized_conn (hw : Written v cv w) :
    ∀ s ∈ connSecs o v w, Sized v.num ⟨w.nno, w.nfa, w.ncv, w.noofaV.length⟩ s := by
  have hz : ∀ s : Sec, s.h.id = 23 → s.payload = [] → Sized v.num ⟨w.nno, w.nfa, w.ncv, w.noofaV.length⟩ s := by
    intro s h1 h2 n hn
    rw [room_zero (.inr (.inr h1))] at hn
    simp only [Option.some.injEq] at hn
    rw [h2, ← hn]; rfl
  intro s hs
  simp only [connSecs, List.mem_append, List.mem_cons, List.not_mem_nil, or_false, List.mem_map] at hs
  rcases hs with ((((rfl | hs) | hs | hs) | ⟨p, _, rfl⟩) | hs | hs | hs)
  · intro n hn; exact absurd hn (by simp [room, sec, mkHeader, cCounts])
  · cases v with
    | v3 => exact absurd hs (by simp [checkSecs])
    | v2 =>
      simp only [checkSecs, List.mem_cons, List.not_mem_nil, or_false] at hs
      rcases hs with rfl | rfl | rfl <;> intro n hn <;> simp [room, sec, mkHeader, cNoCheck, cFaCheck, cCvCheck] at hn <;>
        simp [sec, ← hn]
  · subst hs; intro n hn
    simp [room, sec, mkHeader, cNoofa] at hn
    simp [sec, ← hn, hw.noofaLen]
  · subst hs; intro n hn
    simp [room, sec, mkHeader, cCvofa] at hn
    rw [sec_payload, length_intsBytes, length_flatMap_pairs, hw.rowsLen, ← hn]
    omega
  · exact hz _ rfl rfl
  · subst hs; exact hz _ rfl rfl
  · subst hs; intro n hn
    simp [room, sec, mkHeader, cCvPart] at hn
    rw [sec_payload, length_intsBytes, hw.icvLen, ← hn]
    omega
  · subst hs; intro n hn
    simp [room, sec, mkHeader, cXno] at hn
    rw [sec_payload, length_f64sBytes, length_flatMap_triples, hw.coordsLen, ← hn]
    omega

theorem sized_info {c : Counts} : ∀ s ∈ infoSecs cv w.sim, Sized v.num c s := by
  have hz : ∀ s : Sec, (s.h.id = 11 ∨ s.h.id = 12 ∨ s.h.id = 23) → s.payload = [] → Sized v.num c s := by
    intro s h1 h2 n hn
    rw [room_zero h1] at hn
    simp only [Option.some.injEq] at hn
    rw [h2, ← hn]; rfl
  intro s hs
  simp only [infoSecs, List.mem_append, List.mem_cons, List.not_mem_nil, or_false, List.mem_map] at hs
  rcases hs with (rfl | rfl | rfl | rfl) | ⟨p, _, rfl⟩
  · intro n hn; exact absurd hn (by simp [room, sec, mkHeader, cData])
  · exact hz _ (.inl rfl) rfl
  · exact hz _ (.inr (.inl rfl)) rfl
  · exact hz _ (.inr (.inl rfl)) rfl
  · exact hz _ (.inr (.inl rfl)) rfl

/-- The file written. -/
theorem written_sections {host : Order} {e : Endian} {b : Bytes} (hn : NamesOK w)
    (h : runChunks (fileChunks host e v cv w) = (b, .ok ())) (hd : DataOK v w) :
    ∃ l last, b = fileOf (e.order host) v.num l last [] ∧ Sections v.num l ∧ IsEnd last := by
  obtain ⟨h1, h2⟩ := write_full hn h
  obtain ⟨r1, r2⟩ := ready_of_ok h
  have hw := written_of_ok h
  refine ⟨_, _, h1.trans fileBytes_eq, ⟨fun s hs => (h2 s hs).1, fun s hs => (h2 s hs).2.1.2, ?_, ?_⟩, isEnd_eof⟩
  · rw [counts_written]; simp
  · rw [counts_written]
    intro s hs
    unfold bodySecs at hs
    rcases List.mem_append.1 hs with hs | hs
    · rcases List.mem_append.1 hs with hs | hs
      · exact sized_conn hw s hs
      · exact sized_info s hs
    · exact sized_vars hd r1 r2 s hs

end Cfd.Ic3
