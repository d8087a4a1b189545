import Verif.Lemmas.Ic3Blocks
import Verif.Lemmas.Csr
import Verif.Lemmas.Basic

/-! Reading back the mesh. -/

namespace Cfd.Ic3
open Spec Spec.Ic3

theorem chunk_ok {cs : List (Py Bytes)} {b : Bytes} (h : runChunks cs = (b, .ok ())) {c : Py Bytes}
    (hc : c ∈ cs) : ∃ x, c = .ok x := by
  obtain ⟨bs, rfl, _⟩ := runChunks_ok h
  obtain ⟨x, _, rfl⟩ := List.mem_map.1 hc
  exact ⟨x, rfl⟩

/-- What a successful write tells about the state of the writer. -/
structure Written (v : Ver) (cv : Conv) (w : WState) : Prop where
  noofaLen : w.noofa.length = w.nfa
  noofaFit : ∀ x ∈ w.noofa, FitsInt 4 x
  valueFit : ∀ x ∈ w.noofaV, FitsInt 4 x
  rows : w.f2e = some (WState.rows w)
  rowsLen : (WState.rows w).length = w.nfa
  rowsFit : ∀ x ∈ (WState.rows w).flatMap fun r => [r.1, r.2], FitsInt 4 x
  icvLen : (WState.icv w).length = w.ncv
  icvFit : ∀ x ∈ WState.icv w, FitsInt 4 x
  coordsLen : w.coords.length = w.nno
  checkFit : v = .v2 → (∀ x ∈ pyRange 0 w.nno, FitsInt 4 x) ∧ (∀ x ∈ pyRange 0 w.nfa, FitsInt 4 x) ∧
    ∀ x ∈ pyRange 0 w.ncv, FitsInt 4 x
  zones : ∀ p ∈ w.bocos, p.1 = p.2.name ∧ p.2.onFaces = true ∧
    (∃ k, type2zonekind.get? p.2.type = some k) ∧
    p.2.index = .range (markRange p.2).1 (markRange p.2).2 ∧ (p.2.perio.getD []).length ≤ 16
  step : ∃ n, simInt cv w.sim.step = .ok n
  dt : ∃ x, simF64 cv w.sim.dt = .ok x
  time : ∃ x, simF64 cv w.sim.time = .ok x
  wgt : w.sim.wgt = .wgts (wgtsOf w.sim.wgt)

theorem length_flatMap_pairs (l : List (Int × Int)) : (l.flatMap fun r => [r.1, r.2]).length = l.length * 2 := by
  induction l with
  | nil => rfl
  | cons x t ih => simp [ih]; omega

theorem length_flatMap_triples {α : Type} (l : List (α × α × α)) :
    (l.flatMap fun r => [r.1, r.2.1, r.2.2]).length = l.length * 3 := by
  induction l with
  | nil => rfl
  | cons x t ih => simp [ih]; omega

theorem written_of_ok {host : Order} {e : Endian} {v : Ver} {cv : Conv} {w : WState} {b : Bytes}
    (h : runChunks (fileChunks host e v cv w) = (b, .ok ())) : Written v cv w := by
  have hc : ∀ c ∈ connChunks host e v w, ∃ x, c = .ok x := fun c hc =>
    chunk_ok h (by simp [fileChunks, bodyChunks, hc])
  have hi : ∀ c ∈ infoChunks host e cv w.sim, ∃ x, c = .ok x := fun c hc =>
    chunk_ok h (by simp [fileChunks, bodyChunks, hc])
  have h1 : ∃ x, writeI32 host e w.nfa w.noofa = .ok x := hc _ (by simp [connChunks])
  have h2 : ∃ x, writeI32 host e w.noofaV.length w.noofaV = .ok x := hc _ (by simp [connChunks])
  have h3 : ∃ x, f2eChunk host e w.nfa w.f2e = .ok x := hc _ (by simp [connChunks])
  have h4 : ∃ x, writeF64 host e (w.nno * 3) (w.coords.flatMap fun p => [p.1, p.2.1, p.2.2]) = .ok x :=
    hc _ (by simp [connChunks])
  have h5 : ∀ c ∈ partChunks host e w, ∃ x, c = .ok x := fun c hp => hc _ (by simp [connChunks, hp])
  have h6 : ∀ p ∈ w.bocos, ∃ x, zoneChunk host e p = .ok x := fun p hp => hc _ (by
    unfold connChunks
    simp only [List.mem_append, List.mem_map]
    exact .inl (.inl (.inl (.inr ⟨p, hp, rfl⟩))))
  have h7 : ∃ x, stepChunk host e cv "STEP" w.sim.step = .ok x := hi _ (by simp [infoChunks])
  have h8 : ∃ x, realChunk host e cv "DT" w.sim.dt = .ok x := hi _ (by simp [infoChunks])
  have h9 : ∃ x, realChunk host e cv "TIME" w.sim.time = .ok x := hi _ (by simp [infoChunks])
  have h10 : ∀ c ∈ wgtChunks host e w.sim.wgt, ∃ x, c = .ok x := fun c hp => hi _ (by simp [infoChunks, hp])
  obtain ⟨x1, h1⟩ := h1
  obtain ⟨a1, a2, _⟩ := writeI32_ok.1 h1
  obtain ⟨x2, h2⟩ := h2
  obtain ⟨_, a4, _⟩ := writeI32_ok.1 h2
  obtain ⟨x3, h3⟩ := h3
  obtain ⟨x4, h4⟩ := h4
  obtain ⟨a5, _⟩ := writeF64_ok.1 h4
  have hrows : ∃ r, w.f2e = some r := by
    cases hf : w.f2e with
    | none => rw [hf] at h3; simp [f2eChunk] at h3
    | some r => exact ⟨r, rfl⟩
  obtain ⟨r, hr⟩ := hrows
  have hrw : WState.rows w = r := by simp [WState.rows, hr]
  rw [hr] at h3
  obtain ⟨a6, a7, _⟩ := writeI32_ok.1 h3
  have hpart : (WState.icv w).length = w.ncv ∧ ∀ x ∈ WState.icv w, FitsInt 4 x := by
    unfold partChunks at h5
    cases hp : w.part with
    | none => rw [hp] at h5; simp at h5
    | some p =>
      obtain ⟨np, ic⟩ := p
      rw [hp] at h5
      obtain ⟨x, hx⟩ := h5 (icvChunk host e w.ncv ic) (by simp)
      cases ic with
      | missing =>
        obtain ⟨b1, b2, _⟩ := writeI32_ok.1 hx
        simp only [WState.icv, hp]
        exact ⟨b1, b2⟩
      | arr l =>
        obtain ⟨b1, b2, _⟩ := writeI32_ok.1 hx
        simp only [WState.icv, hp]
        exact ⟨b1, b2⟩
      | null => simp [icvChunk] at hx
  refine ⟨a1, a2, a4, by rw [hrw]; exact hr, ?_, by rw [hrw]; exact a7, hpart.1, hpart.2, ?_, ?_, ?_, ?_, ?_, ?_, ?_⟩
  · rw [hrw]; rw [length_flatMap_pairs] at a6; omega
  · rw [length_flatMap_triples] at a5; omega
  · rintro rfl
    have hk : ∀ name id n, (∀ c ∈ checkSection host e name id n, ∃ x, c = .ok x) →
        ∀ x ∈ pyRange 0 (n : Int), FitsInt 4 x := by
      intro name id n hcs
      obtain ⟨x, hx⟩ := hcs (writeI32 host e n (pyRange 0 n)) (by simp [checkSection])
      exact (writeI32_ok.1 hx).2.1
    have hall : ∀ c ∈ checkChunks host e .v2 w, ∃ x, c = .ok x := fun c hp => hc _ (by simp [connChunks, hp])
    exact ⟨hk "NO_CHECK" cNoCheck _ (fun c hp => hall c (by simp [checkChunks, hp])),
      hk "FA_CHECK" cFaCheck _ (fun c hp => hall c (by simp [checkChunks, hp])),
      hk "CV_CHECK" cCvCheck _ (fun c hp => hall c (by simp [checkChunks, hp]))⟩
  · intro p hp
    obtain ⟨x, hx⟩ := h6 p hp
    obtain ⟨b1, b2, b3, b4, b5, _⟩ := zoneChunk_ok host e hx
    exact ⟨b1, b2, b3, b4, b5⟩
  · obtain ⟨x, hx⟩ := h7
    unfold stepChunk at hx
    simp only [bind_eq_ok] at hx
    exact ⟨hx.choose, hx.choose_spec.1⟩
  · obtain ⟨x, hx⟩ := h8
    unfold realChunk at hx
    simp only [bind_eq_ok] at hx
    exact ⟨hx.choose, hx.choose_spec.1⟩
  · obtain ⟨x, hx⟩ := h9
    unfold realChunk at hx
    simp only [bind_eq_ok] at hx
    exact ⟨hx.choose, hx.choose_spec.1⟩
  · cases hw : w.sim.wgt with
    | int n => rw [hw] at h10; simp [wgtChunks] at h10
    | f64 n => rw [hw] at h10; simp [wgtChunks] at h10
    | wgts d => rfl

theorem isFile_of_ok {host : Order} {e : Endian} {v : Ver} {cv : Conv} {w : WState} {b : Bytes}
    (hn : NamesOK w) (h : runChunks (fileChunks host e v cv w) = (b, .ok ())) :
    IsFile (e.order host) b (bodySecs (e.order host) v cv w) := by
  obtain ⟨h1, h2⟩ := write_full hn h
  refine ⟨⟨intsBytes (e.order host) 4 [magic, v.num], ?_, by simp⟩, h2⟩
  rw [h1, fileBytes, List.append_nil]

/-! ## Pieces of the mesh reader -/

theorem pairs_flatMap (l : List (Int × Int)) : pairs (l.flatMap fun r => [r.1, r.2]) = l := by
  induction l with
  | nil => rfl
  | cons x t ih => simp [pairs, ih]

theorem triples_flatMap (l : List (F64 × F64 × F64)) :
    triples (l.flatMap fun r => [r.1, r.2.1, r.2.2]) = l := by
  induction l with
  | nil => rfl
  | cons x t ih => simp [triples, ih]

theorem closeToRange_self (n : Nat) : closeToRange (pyRange 0 n) n = true := by
  unfold closeToRange
  rw [List.all_eq_true]
  intro p hp
  have h1 : p.1 = p.2 := by
    obtain ⟨i, hi, he⟩ := List.mem_iff_getElem.1 hp
    rw [List.getElem_zip] at he
    rw [← he]
  have h2 := mem_pyRange.1 (List.of_mem_zip hp).2
  simp only [h1, Int.sub_self, Int.natAbs_zero, decide_eq_true_eq]
  omega

theorem At.checkRange {file c : Bytes} {o : Order} {p : Nat} {n : Nat}
    (h : At file p (intsBytes o 4 (pyRange 0 n) ++ c)) (hf : ∀ x ∈ pyRange 0 (n : Int), FitsInt 4 x) :
    checkRange file o p n = .ok () := by
  unfold Ic3.checkRange
  rw [h.readI32 hf (by simp [pyRange])]
  simp [orRaise, closeToRange_self, pyAssert]

theorem int_mkHeader (name : String) (id skip : Int) (idata : List Int) (rdata : List F64) (k : Nat)
    (h : k < idata.length) : (mkHeader name id skip idata rdata).int k = idata[k] := by
  unfold Header.int mkHeader
  simp only [List.getD_eq_getElem?_getD, List.getElem?_append_left h, List.getElem?_eq_getElem h,
    Option.getD_some]

end Cfd.Ic3
