import Verif.Lemmas.Ic3ReadMesh

/-! Reading back the mesh sections. -/

namespace Cfd.Ic3
open Spec Spec.Ic3 ElemConn

theorem sec_id (n : String) (i : Int) (a : List Int) (r : List F64) (p : Bytes) : (sec n i a r p).h.id = i := rfl
theorem sec_payload (n : String) (i : Int) (a : List Int) (r : List F64) (p : Bytes) :
    (sec n i a r p).payload = p := rfl
theorem sec_name (n : String) (i : Int) (a : List Int) (r : List F64) (p : Bytes) :
    (sec n i a r p).h.name = n := rfl
theorem sec_int (n : String) (i : Int) (a : List Int) (r : List F64) (p : Bytes) (k : Nat) (h : k < a.length) :
    (sec n i a r p).h.int k = a[k] := int_mkHeader _ _ _ _ _ _ h

theorem npGet_neg {α : Type} (a : List α) (k : Nat) (h0 : 0 < k) (h : k ≤ a.length) :
    npGet a (-(k : Int)) = .ok (a[a.length - k]'(by omega)) := by
  unfold npGet
  have e : (if -(k : Int) < 0 then -(k : Int) + a.length else -(k : Int)) = ((a.length - k : Nat) : Int) := by
    rw [if_pos (by omega)]; omega
  simp only [e]
  rw [if_neg (by omega), Int.toNat_natCast, List.getElem?_eq_getElem (by omega)]

theorem npGet_ex {α : Type} {a : List α} {x : Int} (h0 : 0 ≤ x) (h : x < a.length) :
    ∃ y, npGet a x = .ok y := by
  have := npGet_of_lt (a := a) (k := x.toNat) (by omega)
  rw [Int.toNat_of_nonneg h0] at this
  exact ⟨_, this⟩

theorem offsets_mem_le (l : List Int) (h : ∀ n ∈ l, 0 ≤ n) (s : Int) : ∀ x ∈ offsets s l, x ≤ s + l.sum := by
  intro x hx
  obtain ⟨k, hk, rfl⟩ := List.mem_iff_getElem.1 hx
  rw [offsets_length] at hk
  have h1 := offsets_getElem? s l k (by omega)
  rw [List.getElem?_eq_getElem (by rw [offsets_length]; omega)] at h1
  rw [Option.some.inj h1]
  have h2 : l.sum = (l.take k).sum + (l.drop k).sum := by rw [← List.sum_append, List.take_append_drop]
  have h3 : 0 ≤ (l.drop k).sum := by
    have : ∀ m : List Int, (∀ n ∈ m, 0 ≤ n) → 0 ≤ m.sum := by
      intro m
      induction m with
      | nil => intro _; simp
      | cons a t ih =>
        intro hm
        have := ih (fun n hn => hm n (by simp [hn]))
        have := hm a (by simp)
        simp only [List.sum_cons]; omega
    exact this _ (fun n hn => h n (List.mem_of_mem_drop hn))
  omega

theorem offsets_check (l : List Int) (v : List Int) (h : ∀ n ∈ l, 0 ≤ n) (hs : l.sum = v.length) :
    (Csr.mk (offsets 0 l) v).check = .ok true := by
  unfold Csr.check
  have h0 : npGet (offsets 0 l) 0 = .ok 0 := by
    have h1 := offsets_getElem? 0 l 0 (by omega)
    simp [npGet, h1]
  have hm : (offsets 0 l).max? = some (v.length : Int) := by
    rw [List.max?_eq_some_iff]
    constructor
    · have h1 := offsets_getElem? 0 l l.length (by omega)
      have := List.mem_of_getElem? h1
      simpa [hs] using this
    · intro b hb
      have := offsets_mem_le l h 0 b hb
      omega
  simp [h0, hm, pyAssert, Except_bind_ok, Except_pure]

variable {v : Ver} {cv : Conv} {w : WState} {file : Bytes} {o : Order}

/-- Sections before those of the faces. -/
def cntSec (w : WState) : Sec := sec "NO_FA_CV_NOOFA_COUNTS" cCounts [w.nno, w.nfa, w.ncv, w.noofaV.length] [] []
def noofaSec (o : Order) (w : WState) : Sec :=
  sec "NOOFA_I_AND_V" cNoofa [w.nfa, w.noofaV.length] [] (intsBytes o 4 w.noofa ++ intsBytes o 4 w.noofaV)
def cvofaSec (o : Order) (w : WState) : Sec :=
  sec "CVOFA" cCvofa [w.nfa, 2] [] (intsBytes o 4 ((WState.rows w).flatMap fun r => [r.1, r.2]))
def partSec (o : Order) (w : WState) : Sec :=
  sec "CV_PART" cCvPart [w.ncv, WState.npart w] [] (intsBytes o 4 (WState.icv w))
def xnoSec (o : Order) (w : WState) : Sec :=
  sec "X_NO" cXno [w.nno, 3] [] (f64sBytes o (w.coords.flatMap fun p => [p.1, p.2.1, p.2.2]))
def tailSecs (o : Order) (v : Ver) (cv : Conv) (w : WState) : List Sec := infoSecs cv w.sim ++ varSecs o v cv w

/-- Decide which sections have the wanted identifiers. -/
local macro "sid" : tactic => `(tactic| simp [cntSec, noofaSec, cvofaSec, partSec, xnoSec, internalSec, zoneSec,
  sec_id, cCounts, cI0, cD0, cFaCheck, cNoofa, cCvofa, cFaZone, cNoCheck, cXno, cNoD1, cNoD3, cNoII1, cCvCheck,
  cCvPart, cCvD1, cCvD3, cCvD33, cCvII1, cData, cEof, cFaD1, cFaD3])

theorem bodySecs_eq : bodySecs o v cv w = cntSec w :: (checkSecs o v w ++ noofaSec o w :: cvofaSec o w ::
    (w.bocos.map zoneSec ++ internalSec w :: partSec o w :: xnoSec o w :: tailSecs o v cv w)) := by
  simp [bodySecs, connSecs, cntSec, noofaSec, cvofaSec, partSec, xnoSec, tailSecs]

theorem others_check {ids : List Int} (h : cNoCheck ∉ ids) (h2 : cFaCheck ∉ ids) (h3 : cCvCheck ∉ ids) :
    Others ids (checkSecs o v w) := by
  cases v
  · simp only [checkSecs, Others.cons, sec_id]; exact ⟨h, h2, h3, Others.nil⟩
  · exact Others.nil

theorem others_zones {ids : List Int} (h : cFaZone ∉ ids) : Others ids (w.bocos.map zoneSec) :=
  Others.map fun _ _ => h

theorem others_tail {ids : List Int} (h : ∀ i ∈ [cData, cI0, cD0, cNoD1, cNoII1, cNoD3, cCvD1, cCvII1, cCvD3, cCvD33], i ∉ ids) :
    Others ids (tailSecs o v cv w) := by
  simp only [List.mem_cons, List.not_mem_nil, or_false, forall_eq_or_imp, forall_eq] at h
  obtain ⟨h1, h2, h3, h4, h5, h6, h7, h8, h9, h10⟩ := h
  unfold tailSecs infoSecs
  cases v
  · simp only [varSecs, varSecsV2, Others.append, Others.cons, sec_id, Others.nil, and_true]
    refine ⟨⟨⟨h1, h2, h3, h3⟩, Others.map fun _ _ => h3⟩, ⟨⟨⟨Others.map fun _ _ => h4, Others.map fun _ _ => h6⟩,
      Others.map fun _ _ => h7⟩, Others.map fun _ _ => h9⟩, Others.map fun _ _ => h10⟩
  · simp only [varSecs, varSecsV3, Others.append, Others.cons, sec_id, Others.nil, and_true]
    refine ⟨⟨⟨h1, h2, h3, h3⟩, Others.map fun _ _ => h3⟩, ⟨⟨⟨Others.map fun p _ => ?_, Others.map fun _ _ => h6⟩,
      Others.map fun p _ => ?_⟩, Others.map fun _ _ => h9⟩, Others.map fun _ _ => h10⟩
    · rw [sec_id]; split <;> assumption
    · rw [sec_id]; split <;> assumption

theorem integrity_ok (hF : IsFile o file (bodySecs o v cv w)) (hw : Written v cv w) :
    integrity file o w.nno w.nfa w.ncv = .ok () := by
  rw [bodySecs_eq] at hF
  cases v with
  | v3 =>
    have h8 := hF.at8
    have := hF.body
    obtain ⟨q, hq⟩ := h8.scan_absent (ids := [cNoCheck]) hF.body (by
      simp only [checkSecs, List.nil_append, Others.cons, Others.append]
      refine ⟨by sid, by sid, by sid, others_zones (by decide), by sid, by sid, by sid, ?_⟩
      exact others_tail (by decide)) (by sid)
    unfold integrity
    rw [hq]
    rfl
  | v2 =>
    simp only [checkSecs, List.cons_append, List.nil_append] at hF
    generalize noofaSec o w :: cvofaSec o w :: (w.bocos.map zoneSec ++ internalSec w :: partSec o w ::
      xnoSec o w :: tailSecs o .v2 cv w) = R at hF
    obtain ⟨f1, f2, f3⟩ := hw.checkFit rfl
    obtain ⟨q1, s1, a1⟩ := IsFile.scanReq (ids := [cNoCheck]) (l := [cntSec w]) hF
      (by simp only [Others.cons]; exact ⟨by sid, Others.nil⟩) (by sid)
    obtain ⟨q2, s2, a2⟩ := IsFile.scanReq (ids := [cFaCheck])
      (l := [cntSec w, sec "NO_CHECK" cNoCheck [w.nno] [] (intsBytes o 4 (pyRange 0 w.nno))]) hF
      (by simp only [Others.cons, sec_id]; exact ⟨by sid, by sid, Others.nil⟩) (by sid)
    obtain ⟨q3, s3, a3⟩ := IsFile.scanReq (ids := [cCvCheck])
      (l := [cntSec w, sec "NO_CHECK" cNoCheck [w.nno] [] (intsBytes o 4 (pyRange 0 w.nno)),
        sec "FA_CHECK" cFaCheck [w.nfa] [] (intsBytes o 4 (pyRange 0 w.nfa))]) hF
      (by simp only [Others.cons, sec_id]; exact ⟨by sid, by sid, by sid, Others.nil⟩) (by sid)
    have e1 : scan file o [cNoCheck] 8 = .ok (.found
        (sec "NO_CHECK" cNoCheck [w.nno] [] (intsBytes o 4 (pyRange 0 w.nno))).h q1) := by
      unfold scanReq at s1
      revert s1
      cases hs : scan file o [cNoCheck] 8 with
      | error e => simp
      | ok r => cases r <;> simp [bind, Except.bind]
    rw [sec_payload] at a1 a2 a3
    unfold integrity
    rw [e1, s2, s3]
    simp only [Except_bind_ok]
    rw [a1.checkRange f1, a2.checkRange f2, a3.checkRange f3]
    rw [sec_int _ _ _ _ _ 0 (by simp), sec_int _ _ _ _ _ 0 (by simp)]
    simp [pyAssert, sec_id, Except_bind_ok]

theorem counts_ok (hF : IsFile o file (bodySecs o v cv w)) :
    ∃ q, scanReq file o [cCounts] = .ok ((cntSec w).h, q) := by
  rw [bodySecs_eq] at hF
  obtain ⟨q, h, _⟩ := IsFile.scanReq (ids := [cCounts]) (l := []) hF Others.nil (by sid)
  exact ⟨q, h⟩

/-- The consistency test on the offsets of the faces. -/
theorem noofa_tests {noofa value : List Int} (hpos : 0 < noofa.length) (ht : noofa.sum = value.length) :
    ∃ a b, npGet (offsets 0 noofa) (-2) = .ok a ∧ npGet noofa (-1) = .ok b ∧ a = (value.length : Int) - b := by
  have hlen : (offsets 0 noofa).length = noofa.length + 1 := offsets_length _ _
  have g1 := npGet_neg (offsets 0 noofa) 2 (by decide) (by omega)
  have g2 := npGet_neg noofa 1 (by decide) (by omega)
  refine ⟨_, _, g1, g2, ?_⟩
  have e1 : noofa.sum = (noofa.take (noofa.length - 1)).sum + noofa[noofa.length - 1] := by
    have : noofa = noofa.take (noofa.length - 1) ++ [noofa[noofa.length - 1]] := by
      rw [List.take_append_getElem, List.take_of_length_le (by omega)]
    conv => lhs; rw [this]
    rw [List.sum_append]; simp
  have h1 := offsets_getElem? 0 noofa (noofa.length - 1) (by omega)
  have h2 : (offsets 0 noofa).length - 2 = noofa.length - 1 := by omega
  rw [List.getElem?_eq_getElem (by omega)] at h1
  simp only [h2, Option.some.inj h1]
  rw [ht] at e1
  omega

theorem readNoofa_ok (hF : IsFile o file (bodySecs o v cv w)) (hw : Written v cv w) (hm : MeshOK w) :
    readNoofa file o w.nfa w.noofaV.length = .ok ⟨offsets 0 w.noofa, w.noofaV⟩ := by
  rw [bodySecs_eq] at hF
  obtain ⟨q, s1, a1⟩ := IsFile.scanReq (ids := [cNoofa]) (l := cntSec w :: checkSecs o v w) hF
    (by rw [Others.cons]; exact ⟨by sid, others_check (by decide) (by decide) (by decide)⟩) (by sid)
  rw [noofaSec, sec_payload, List.append_assoc] at a1
  have r1 := a1.readI32 hw.noofaFit (n := w.nfa) (by rw [hw.noofaLen])
  have a2 := a1.step' (n := 4 * w.nfa) (by simp [hw.noofaLen])
  have r2 := a2.readI32 hw.valueFit rfl
  have hpos := hm.faces
  have hL := hw.noofaLen
  have hlen : (offsets 0 w.noofa).length = w.nfa + 1 := by rw [offsets_length, hL]
  have g1 := npGet_neg (offsets 0 w.noofa) 2 (by decide) (by omega)
  have g2 := npGet_neg w.noofa 1 (by decide) (by omega)
  have e1 : w.noofa.sum = (w.noofa.take (w.nfa - 1)).sum + w.noofa[w.noofa.length - 1] := by
    have e0 : w.noofa.length - 1 = w.nfa - 1 := by omega
    have : w.noofa = w.noofa.take (w.noofa.length - 1) ++ [w.noofa[w.noofa.length - 1]] := by
      rw [List.take_append_getElem, List.take_of_length_le (by omega)]
    conv => lhs; rw [this]
    have e3 : w.noofa.take (w.noofa.length - 1) = w.noofa.take (w.nfa - 1) := by rw [e0]
    rw [List.sum_append, e3]; simp
  have e2 : (offsets 0 w.noofa)[(offsets 0 w.noofa).length - 2]'(by omega) =
      (w.noofaV.length : Int) - w.noofa[w.noofa.length - 1] := by
    have h1 := offsets_getElem? 0 w.noofa (w.nfa - 1) (by omega)
    have h2 : (offsets 0 w.noofa).length - 2 = w.nfa - 1 := by omega
    rw [List.getElem?_eq_getElem (by omega)] at h1
    simp only [h2, Option.some.inj h1]
    rw [hm.nodesTotal] at e1
    omega
  rw [e2] at g1
  have hc := offsets_check w.noofa w.noofaV (fun n hn => by have := hm.nodesPerFace n hn; omega) hm.nodesTotal
  unfold readNoofa
  rw [s1, noofaSec]
  simp only [Except_bind_ok]
  rw [sec_int _ _ _ _ _ 0 (by simp), sec_int _ _ _ _ _ 1 (by simp), r1]
  simp only [Except_bind_ok, orRaise, pyAssert, Int.toNat_natCast]
  rw [show (-2 : Int) = -((2 : Nat) : Int) from rfl, show (-1 : Int) = -((1 : Nat) : Int) from rfl, g1, g2, r2]
  simp [Except_bind_ok, hc, Except_pure]

theorem max_pairs (l : List (Int × Int)) (m : Int) (h1 : ∀ r ∈ l, r.1 ≤ m ∧ r.2 ≤ m)
    (h2 : ∃ r ∈ l, r.1 = m ∨ r.2 = m) : (l.flatMap fun r => [r.1, r.2]).max? = some m := by
  rw [List.max?_eq_some_iff]
  simp only [List.mem_flatMap, List.mem_cons, List.not_mem_nil, or_false]
  constructor
  · obtain ⟨r, hr, h⟩ := h2
    exact ⟨r, hr, by omega⟩
  · rintro b ⟨r, hr, h⟩
    have := h1 r hr
    omega

theorem readCvofa_ok (hF : IsFile o file (bodySecs o v cv w)) (hw : Written v cv w) (hm : MeshOK w) :
    ∃ p, readCvofa file o w.nfa w.ncv = .ok (WState.rows w, p) ∧
      At file p (secsBytes o (w.bocos.map zoneSec ++ internalSec w :: partSec o w :: xnoSec o w ::
        tailSecs o v cv w) ++ (eofSec.bytes o ++ [])) := by
  rw [bodySecs_eq] at hF
  obtain ⟨q, s1, a1⟩ := IsFile.scanReq (ids := [cCvofa]) (l := cntSec w :: (checkSecs o v w ++ [noofaSec o w]))
    (s := cvofaSec o w) (by simpa using hF)
    (by rw [Others.cons, Others.append, Others.cons]
        exact ⟨by sid, others_check (by decide) (by decide) (by decide), by sid, Others.nil⟩) (by sid)
  rw [cvofaSec, sec_payload] at a1
  have hl : ((WState.rows w).flatMap fun r => [r.1, r.2]).length = w.nfa * 2 := by
    rw [length_flatMap_pairs, hw.rowsLen]
  have r1 := a1.readI32 hw.rowsFit (n := (w.nfa : Int) * 2) (by rw [hl]; omega)
  have a2 := a1.step' (n := 4 * (w.nfa * 2)) (by simp [hl])
  have hmax := max_pairs (WState.rows w) ((w.ncv : Int) - 1) (fun r hr => by have := hm.cellMax r hr; omega) hm.lastCell
  refine ⟨_, ?_, a2⟩
  unfold readCvofa
  rw [s1, cvofaSec]
  simp only [Except_bind_ok]
  rw [sec_int _ _ _ _ _ 0 (by simp), sec_int _ _ _ _ _ 1 (by simp), r1]
  simp only [Except_bind_ok, orRaise, hmax, pairs_flatMap]
  have e : (4 * (w.nfa * 2) : Nat) = 4 * ((w.nfa : Int) * 2).toNat := by omega
  rw [e]
  have e2 : (w.ncv : Int) - 1 < w.ncv := by omega
  simp [pyAssert, Except_bind_ok, Except_pure, e2]

theorem zoneStep_ok {z : Csr} {b : List Mark} {p : String × Mark} {q : Nat}
    (hk : ∃ k, type2zonekind.get? p.2.type = some k) (ht : p.2.type ≠ "internal")
    (hi : p.2.index = .range (markRange p.2).1 (markRange p.2).2)
    (h0 : 0 ≤ (markRange p.2).1) (h1 : (markRange p.2).1 < z.index.length) :
    zoneStep z b (zoneSec p).h q = .ok (b ++ [readMark p], 0, true) := by
  obtain ⟨k, hk⟩ := hk
  have hkt : zonekind2type.getE k = .ok p.2.type ∧ k ≠ 6 := by
    have := Dict.mem_of_get? hk
    simp only [type2zonekind, List.mem_cons, List.not_mem_nil, or_false, Prod.mk.injEq] at this
    rcases this with ⟨h, rfl⟩ | ⟨h, rfl⟩ | ⟨h, rfl⟩ | ⟨h, rfl⟩ | ⟨h, rfl⟩ | ⟨h, rfl⟩
    · rw [h]; decide
    · rw [h]; decide
    · rw [h]; decide
    · rw [h]; decide
    · rw [h]; decide
    · exact absurd h ht
  obtain ⟨x, hx⟩ := npGet_ex (a := z.index) h0 h1
  have e : (zoneSec p).h.rdata = p.2.perio.getD [] ++ List.replicate (16 - (p.2.perio.getD []).length) 0 := rfl
  have e0 : (zoneSec p).h.int 0 = k := by
    rw [zoneSec, sec_int _ _ _ _ _ 0 (by simp)]; simp [hk]
  have e1 : (zoneSec p).h.int 1 = (markRange p.2).1 := by
    rw [zoneSec, sec_int _ _ _ _ _ 1 (by simp)]; simp
  have e2 : (zoneSec p).h.int 2 = (markRange p.2).2 := by
    rw [zoneSec, sec_int _ _ _ _ _ 2 (by simp)]; simp
  have e3 : (zoneSec p).h.name = p.1 := rfl
  unfold zoneStep
  rw [e, e0, e1, e2, e3, hkt.1]
  simp only [Except_bind_ok, hx, ht, if_false, Except_pure, readMark, ← hi]
  simp [hkt.2]

theorem foldl_append_map {α β : Type} (f : α → β) (l : List α) (b : List β) :
    l.foldl (fun s x => s ++ [f x]) b = b ++ l.map f := by
  induction l generalizing b with
  | nil => simp
  | cons x t ih => simp [ih]

theorem zones_ok {p : Nat} (hF : IsFile o file (bodySecs o v cv w)) (hw : Written v cv w) (hm : MeshOK w)
    (hp : At file p (secsBytes o (w.bocos.map zoneSec ++ internalSec w :: partSec o w :: xnoSec o w ::
        tailSecs o v cv w) ++ (eofSec.bytes o ++ []))) (hlast : lastBoco w.bocos + 1 ≤ w.nfa)
    (hlast0 : 0 ≤ lastBoco w.bocos) :
    sectionLoop file o [cFaZone] (zoneStep ⟨offsets 0 w.noofa, w.noofaV⟩) p [] =
      .ok (w.bocos.map readMark ++ [internalMark w]) := by
  have hb := hF.body
  rw [bodySecs_eq, Body.cons, Body.append, Body.cons, Body.cons, Body.append, Body.cons] at hb
  obtain ⟨_, _, _, _, hz, hi, _⟩ := hb
  have hlen : (offsets 0 w.noofa).length = w.nfa + 1 := by rw [offsets_length, hw.noofaLen]
  rw [secsBytes_append, List.append_assoc] at hp
  obtain ⟨q, h1, _, h2⟩ := loop_map (file := file) (o := o) (ids := [cFaZone]) (l := w.bocos) (sc := zoneSec)
    (step := zoneStep ⟨offsets 0 w.noofa, w.noofaV⟩) (fun s x => s ++ [readMark x]) (fun _ => True)
    (fun x _ => by sid)
    (fun st x q c hx _ _ => by
      obtain ⟨_, _, z3, z4, _⟩ := hw.zones x hx
      obtain ⟨m1, m2, m3⟩ := hm.markRanges x hx
      exact ⟨zoneStep_ok z3 (hm.markTypes x hx) z4 m1 (by simp only; omega), trivial⟩) [] trivial hz hp
  rw [h2, foldl_append_map, List.nil_append]
  have e : secsBytes o (internalSec w :: partSec o w :: xnoSec o w :: tailSecs o v cv w) ++ (eofSec.bytes o ++ []) =
    secsBytes o [] ++ ((internalSec w).bytes o ++ (secsBytes o (partSec o w :: xnoSec o w :: tailSecs o v cv w) ++ (eofSec.bytes o ++ []))) := by
    simp [secsBytes]
  rw [e] at h1
  obtain ⟨q', hs, _⟩ := h1.scan_found (ids := [cFaZone]) (by simp [Body]) (by simp [Others]) hi.1 (by sid)
  refine sectionLoop_last (k := 0) hs ?_
  obtain ⟨x, hx⟩ := npGet_ex (a := offsets 0 w.noofa) (x := lastBoco w.bocos + 1) (by omega) (by omega)
  have e0 : (internalSec w).h.int 0 = 6 := by
    rw [internalSec, sec_int _ _ _ _ _ 0 (by simp)]; simp
  have e1 : (internalSec w).h.int 1 = lastBoco w.bocos + 1 := by
    rw [internalSec, sec_int _ _ _ _ _ 1 (by simp)]; simp
  have e2 : (internalSec w).h.int 2 = (w.nfa : Int) - 1 := by
    rw [internalSec, sec_int _ _ _ _ _ 2 (by simp)]; simp
  have e3 : (internalSec w).h.name = "internal-domain" := rfl
  have e4 : (internalSec w).h.rdata = List.replicate 16 0 := rfl
  have e5 : zonekind2type.getE 6 = .ok "internal" := by decide
  unfold zoneStep
  rw [e0, e1, e2, e3, e4, e5]
  simp [Except_bind_ok, hx, Except_pure, internalMark]

theorem lastBoco_bounds {n : Int} {l : Dict String Mark} (hn : 0 < n)
    (h : ∀ p ∈ l, p.2.index = .range (markRange p.2).1 (markRange p.2).2 ∧ (markRange p.2).2 < n) :
    0 ≤ lastBoco l ∧ lastBoco l < n := by
  unfold lastBoco
  have : ∀ (l : Dict String Mark) (a : Int), 0 ≤ a → a < n →
      (∀ p ∈ l, p.2.index = .range (markRange p.2).1 (markRange p.2).2 ∧ (markRange p.2).2 < n) →
      0 ≤ l.foldl (fun a p => match p.2.index.getRange with | .ok r => max a r.2 | .error _ => a) a ∧
      l.foldl (fun a p => match p.2.index.getRange with | .ok r => max a r.2 | .error _ => a) a < n := by
    intro l
    induction l with
    | nil => intro a h0 h1 _; exact ⟨h0, h1⟩
    | cons x t ih =>
      intro a h0 h1 h2
      rw [List.foldl_cons]
      obtain ⟨hx, hx2⟩ := h2 x (by simp)
      refine ih _ ?_ ?_ (fun p hp => h2 p (by simp [hp]))
      · split
        · exact le_trans h0 (le_max_left _ _)
        · exact h0
      · rw [hx]; exact max_lt h1 hx2
  exact this l 0 (by omega) hn h

theorem readPart_ok (hF : IsFile o file (bodySecs o v cv w)) (hw : Written v cv w) :
    readPart file o w.ncv = .ok (WState.npart w, .arr (WState.icv w)) := by
  rw [bodySecs_eq] at hF
  obtain ⟨q, s1, a1⟩ := IsFile.scanReq (ids := [cCvPart]) (l := cntSec w :: (checkSecs o v w ++ noofaSec o w ::
    cvofaSec o w :: (w.bocos.map zoneSec ++ [internalSec w])))
    (s := partSec o w) (by simpa using hF)
    (by rw [Others.cons, Others.append, Others.cons, Others.cons, Others.append, Others.cons]
        exact ⟨by sid, others_check (by decide) (by decide) (by decide), by sid, by sid,
          others_zones (by decide), by sid, Others.nil⟩) (by sid)
  rw [partSec, sec_payload] at a1
  have r1 := a1.readI32 hw.icvFit (n := w.ncv) (by rw [hw.icvLen])
  unfold readPart
  rw [s1, partSec]
  simp only [Except_bind_ok]
  rw [sec_int _ _ _ _ _ 1 (by simp), r1]
  rfl

theorem readCoords_ok (hF : IsFile o file (bodySecs o v cv w)) (hw : Written v cv w) :
    readCoords file o w.nno = .ok w.coords := by
  rw [bodySecs_eq] at hF
  obtain ⟨q, s1, a1⟩ := IsFile.scanReq (ids := [cXno]) (l := cntSec w :: (checkSecs o v w ++ noofaSec o w ::
    cvofaSec o w :: (w.bocos.map zoneSec ++ [internalSec w, partSec o w])))
    (s := xnoSec o w) (by simpa using hF)
    (by rw [Others.cons, Others.append, Others.cons, Others.cons, Others.append, Others.cons, Others.cons]
        exact ⟨by sid, others_check (by decide) (by decide) (by decide), by sid, by sid,
          others_zones (by decide), by sid, by sid, Others.nil⟩) (by sid)
  rw [xnoSec, sec_payload] at a1
  have r1 := a1.readF64 (n := (w.nno : Int) * 3) (by rw [length_flatMap_triples, hw.coordsLen]; omega)
  unfold readCoords
  rw [s1, xnoSec]
  simp only [Except_bind_ok]
  rw [sec_int _ _ _ _ _ 0 (by simp), sec_int _ _ _ _ _ 1 (by simp), r1]
  simp [Except_bind_ok, orRaise, pyAssert, triples_flatMap, Except_pure]

/-- The mesh sections read back are those written. -/
theorem readConnectivity_ok (integ : Bool) (hF : IsFile o file (bodySecs o v cv w)) (hw : Written v cv w)
    (hm : MeshOK w) : readConnectivity integ file o = .ok (meshRead w) := by
  obtain ⟨q, s1⟩ := counts_ok hF
  obtain ⟨p, c1, c2⟩ := readCvofa_ok hF hw hm
  have hl := lastBoco_bounds (n := w.nfa) (by have := hm.faces; omega)
    (fun p hp => ⟨(hw.zones p hp).2.2.2.1, (hm.markRanges p hp).2.2⟩)
  have z1 := zones_ok hF hw hm c2 (by omega) hl.1
  unfold readConnectivity
  rw [s1, cntSec]
  simp only [Except_bind_ok]
  rw [sec_int _ _ _ _ _ 0 (by simp), sec_int _ _ _ _ _ 1 (by simp), sec_int _ _ _ _ _ 2 (by simp),
    sec_int _ _ _ _ _ 3 (by simp)]
  simp only [List.getElem_cons_zero, List.getElem_cons_succ]
  rw [integrity_ok hF hw, readNoofa_ok hF hw hm, c1]
  simp only [Except_bind_ok, z1, readPart_ok hF hw, readCoords_ok hF hw]
  split <;> rfl

end Cfd.Ic3
