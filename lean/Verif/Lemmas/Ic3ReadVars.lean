import Verif.Lemmas.Ic3ReadConn

/-! Reading back parameters and data. -/

namespace Cfd.Ic3
open Spec Spec.Ic3 ElemConn

/-! ## Dictionaries -/

theorem foldl_set_new {α V : Type} (l : List α) (key : α → String) (g : α → V) (d : Dict String V)
    (h : (d.keys ++ l.map key).Nodup) :
    l.foldl (fun d p => d.set (key p) (g p)) d = d ++ l.map fun p => (key p, g p) := by
  induction l generalizing d with
  | nil => simp
  | cons x t ih =>
    rw [List.foldl_cons]
    have hx : key x ∉ d.keys := by
      intro hx
      rw [List.nodup_append] at h
      exact h.2.2 _ hx _ (by simp) rfl
    have e : d.set (key x) (g x) = d ++ [(key x, g x)] := Dict.set_of_not_mem _ hx
    have e2 : Dict.keys (d ++ [(key x, g x)]) = d.keys ++ [key x] := by simp [Dict.keys]
    rw [e, ih _ (by rw [e2]; simpa using h)]
    simp

theorem foldl_set_get? {α V : Type} (l : List α) (key : α → String) (g : α → V) (d : Dict String V) (k : String)
    (h : ∀ x ∈ l, key x ≠ k) :
    (l.foldl (fun d p => d.set (key p) (g p)) d).get? k = d.get? k := by
  induction l generalizing d with
  | nil => rfl
  | cons x t ih =>
    rw [List.foldl_cons, ih _ (fun y hy => h y (by simp [hy])),
      Dict.get?_set_ne _ _ (Ne.symm (h x (by simp)))]

/-! ## Parameters -/

/-- Parameters read from the file. -/
def infoRead (cv : Conv) (s : SimState) : Dict String SimVal :=
  (wgtsOf s.wgt).foldl (fun d p => d.set (p.1.toUpper ++ "_WGT").toLower (.f64 p.2))
    [("step", .int (simIntD cv s.step)), ("dt", .f64 (simF64D cv s.dt)), ("time", .f64 (simF64D cv s.time)),
     ("wgt", .wgts [])]

variable {v : Ver} {cv : Conv} {w : WState} {file : Bytes} {o : Order}

/-- Decide which sections have the wanted identifiers. -/
macro "sid" : tactic => `(tactic| simp [cntSec, noofaSec, cvofaSec, partSec, xnoSec, internalSec, zoneSec,
  sec_id, cCounts, cI0, cD0, cFaCheck, cNoofa, cCvofa, cFaZone, cNoCheck, cXno, cNoD1, cNoD3, cNoII1, cCvCheck,
  cCvPart, cCvD1, cCvD3, cCvD33, cCvII1, cData, cEof, cFaD1, cFaD3])

theorem others_conn {ids : List Int} (h : ∀ i ∈ [cCounts, cNoCheck, cFaCheck, cCvCheck, cNoofa, cCvofa, cFaZone, cCvPart, cXno], i ∉ ids) :
    Others ids (connSecs o v w) := by
  simp only [List.mem_cons, List.not_mem_nil, or_false, forall_eq_or_imp, forall_eq] at h
  obtain ⟨h1, h2, h3, h4, h5, h6, h7, h8, h9⟩ := h
  unfold connSecs
  simp only [Others.append, Others.cons, sec_id, Others.nil, and_true]
  exact ⟨⟨⟨⟨h1, others_check h2 h3 h4⟩, h5, h6⟩, others_zones h7⟩, h7, h8, h9⟩

theorem others_vars {ids : List Int} (h : ∀ i ∈ [cNoD1, cNoII1, cNoD3, cCvD1, cCvII1, cCvD3, cCvD33], i ∉ ids) :
    Others ids (varSecs o v cv w) := by
  simp only [List.mem_cons, List.not_mem_nil, or_false, forall_eq_or_imp, forall_eq] at h
  obtain ⟨h4, h5, h6, h7, h8, h9, h10⟩ := h
  cases v
  · simp only [varSecs, varSecsV2, Others.append]
    refine ⟨⟨⟨⟨Others.map fun _ _ => h4, Others.map fun _ _ => h6⟩,
      Others.map fun _ _ => h7⟩, Others.map fun _ _ => h9⟩, Others.map fun _ _ => h10⟩
  · simp only [varSecs, varSecsV3, Others.append]
    refine ⟨⟨⟨⟨Others.map fun p _ => ?_, Others.map fun _ _ => h6⟩,
      Others.map fun p _ => ?_⟩, Others.map fun _ _ => h9⟩, Others.map fun _ _ => h10⟩
    · rw [sec_id]; split <;> assumption
    · rw [sec_id]; split <;> assumption

theorem others_info {ids : List Int} (h : ∀ i ∈ [cData, cI0, cD0], i ∉ ids) : Others ids (infoSecs cv w.sim) := by
  simp only [List.mem_cons, List.not_mem_nil, or_false, forall_eq_or_imp, forall_eq] at h
  obtain ⟨h1, h2, h3⟩ := h
  unfold infoSecs
  simp only [Others.append, Others.cons, sec_id, Others.nil, and_true]
  exact ⟨⟨h1, h2, h3, h3⟩, Others.map fun _ _ => h3⟩

theorem secsBytes_cons (o : Order) (a : Sec) (b : List Sec) : secsBytes o (a :: b) = a.bytes o ++ secsBytes o b := by
  simp [secsBytes]

theorem secsBytes_single (o : Order) (a : Sec) : secsBytes o [a] = a.bytes o := by
  simp [secsBytes]

theorem rdata_sec (n : String) (i : Int) (a : List Int) (x : F64) (p : Bytes) :
    (sec n i a [x] p).h.rdata.getD 0 0 = x := rfl

/-- The parameters read back. -/
theorem readInfo_ok (hF : IsFile o file (bodySecs o v cv w)) : readInfo file o = .ok (infoRead cv w.sim) := by
  have h8 := hF.at8
  have hb := hF.body
  rw [bodySecs, Body.append, Body.append] at hb
  obtain ⟨⟨b1, b2⟩, b3⟩ := hb
  rw [bodySecs, secsBytes_append, secsBytes_append, List.append_assoc, List.append_assoc] at h8
  unfold readInfo
  obtain ⟨q1, h8, e⟩ := loop_skip (ids := [cI0, cD0]) (step := infoStep)
    (st := [("step", SimVal.int 0), ("dt", .int 0), ("time", .int 0), ("wgt", .wgts [])])
    b1 (others_conn (by decide)) h8
  rw [e]
  clear e b1
  unfold infoSecs at b2 h8
  rw [Body.append] at b2
  obtain ⟨b2, b4⟩ := b2
  rw [Body.cons] at b2
  rw [List.cons_append, secsBytes_cons, List.append_assoc, ← secsBytes_single] at h8
  obtain ⟨q2, h8, e⟩ := loop_skip (ids := [cI0, cD0]) (step := infoStep)
    (st := [("step", SimVal.int 0), ("dt", .int 0), ("time", .int 0), ("wgt", .wgts [])])
    (Body.cons.2 ⟨b2.1, by simp [Body]⟩) (by rw [Others.cons]; exact ⟨by sid, Others.nil⟩) h8
  rw [e]
  clear e
  have hone : ∀ (s : Sec) (st st' : Dict String SimVal) (c : Bytes) (q : Nat), SecWF s → Passes s →
      s.h.id ∈ [cI0, cD0] → (∀ p, infoStep st s.h p = .ok (st', 0, true)) → At file q (s.bytes o ++ c) →
      ∃ q', At file q' c ∧ sectionLoop file o [cI0, cD0] infoStep q st = sectionLoop file o [cI0, cD0] infoStep q' st' := by
    intro s st st' c q w hp hid hst hq
    have e : s.bytes o ++ c = secsBytes o [] ++ (s.bytes o ++ c) := by simp [secsBytes]
    rw [e] at hq
    obtain ⟨q', h1, h2⟩ := hq.scan_found (ids := [cI0, cD0]) (by simp [Body]) (by simp [Others]) w hid
    rw [hp.2 (by simpa using hid), List.nil_append] at h2
    exact ⟨q', h2, sectionLoop_found h1 (hst q')⟩
  simp only [List.cons_append, List.nil_append, secsBytes_cons, List.append_assoc] at h8
  obtain ⟨_, b2⟩ := b2
  rw [Body.cons, Body.cons, Body.cons] at b2
  obtain ⟨b21, b22, b23, _⟩ := b2
  obtain ⟨q3, h8, e⟩ := hone _ [("step", .int 0), ("dt", .int 0), ("time", .int 0), ("wgt", .wgts [])]
    [("step", .int (simIntD cv w.sim.step)), ("dt", .int 0), ("time", .int 0), ("wgt", .wgts [])]
    _ _ b21.1 b21.2 (by sid) (by
      intro p
      unfold infoStep
      rw [sec_id, if_pos rfl, sec_int _ _ _ _ _ 0 (by simp), sec_name, show "STEP".toLower = "step" by decide +kernel]
      rfl) h8
  rw [e]
  clear e
  obtain ⟨q4, h8, e⟩ := hone _ [("step", .int (simIntD cv w.sim.step)), ("dt", .int 0), ("time", .int 0), ("wgt", .wgts [])]
    [("step", .int (simIntD cv w.sim.step)), ("dt", .f64 (simF64D cv w.sim.dt)), ("time", .int 0), ("wgt", .wgts [])]
    _ _ b22.1 b22.2 (by sid) (by
      intro p
      unfold infoStep
      rw [sec_id, if_neg (by decide), rdata_sec, sec_name, show "DT".toLower = "dt" by decide +kernel]
      rfl) h8
  rw [e]
  clear e
  obtain ⟨q5, h8, e⟩ := hone _ [("step", .int (simIntD cv w.sim.step)), ("dt", .f64 (simF64D cv w.sim.dt)), ("time", .int 0), ("wgt", .wgts [])]
    [("step", .int (simIntD cv w.sim.step)), ("dt", .f64 (simF64D cv w.sim.dt)),
      ("time", .f64 (simF64D cv w.sim.time)), ("wgt", .wgts [])]
    _ _ b23.1 b23.2 (by sid) (by
      intro p
      unfold infoStep
      rw [sec_id, if_neg (by decide), rdata_sec, sec_name, show "TIME".toLower = "time" by decide +kernel]
      rfl) h8
  rw [e]
  clear e
  obtain ⟨q6, h8, _, e⟩ := loop_map (file := file) (o := o) (ids := [cI0, cD0]) (step := infoStep)
    (fun d p => d.set (p.1.toUpper ++ "_WGT").toLower (.f64 p.2)) (fun _ => True)
    (fun x _ => by sid)
    (fun st x q c hx _ _ => by
      refine ⟨?_, trivial⟩
      unfold infoStep
      rw [sec_id, if_neg (by decide), rdata_sec, sec_name, sec_payload]
      rfl)
    [("step", .int (simIntD cv w.sim.step)), ("dt", .f64 (simF64D cv w.sim.dt)),
      ("time", .f64 (simF64D cv w.sim.time)), ("wgt", .wgts [])] trivial b4 h8
  rw [e]
  clear e
  obtain ⟨q7, h8, e⟩ := loop_skip (ids := [cI0, cD0]) (step := infoStep) (st := infoRead cv w.sim)
    b3 (others_vars (by decide)) h8
  unfold infoRead at e
  rw [e]
  exact loop_end _ (by decide) h8

/-! ## Data -/

/-- Identifier of a scalar section. -/
def scId (v : Ver) (idF idI : Int) (a : NpArr) : Int :=
  match v with
  | .v2 => idF
  | .v3 => if isI64 a then idI else idF

/-- Payload of a scalar section. -/
def scPay (o : Order) (v : Ver) (cv : Conv) (a : NpArr) : Bytes :=
  match v with
  | .v2 => f64sBytes o (a.doubles cv)
  | .v3 => scalarPayload o a

/-- Integers of the header of a cell section. -/
def cellInts (v : Ver) (w : WState) (i2 i3 : List Int) : List Int :=
  match v with
  | .v2 => (w.ncv : Int) :: i2
  | .v3 => (w.ncv : Int) :: CellSet.ndof w.cells :: i3

def nodeScSec (o : Order) (v : Ver) (cv : Conv) (w : WState) (p : String × NpArr) : Sec :=
  sec p.1 (scId v cNoD1 cNoII1 p.2) [w.nno] [] (scPay o v cv p.2)
def nodeVecSec (o : Order) (cv : Conv) (w : WState) (p : String × NpArr) : Sec :=
  sec p.1 cNoD3 [w.nno, 3] [] (f64sBytes o (p.2.doubles cv))
def cellScSec (o : Order) (v : Ver) (cv : Conv) (w : WState) (p : String × NpArr) : Sec :=
  sec p.1 (scId v cCvD1 cCvII1 p.2) (cellInts v w [] []) [] (scPay o v cv p.2)
def cellVecSec (o : Order) (v : Ver) (cv : Conv) (w : WState) (p : String × NpArr) : Sec :=
  sec p.1 cCvD3 (cellInts v w [3] []) [] (f64sBytes o (p.2.doubles cv))
def cellTenSec (o : Order) (v : Ver) (cv : Conv) (w : WState) (p : String × NpArr) : Sec :=
  sec p.1 cCvD33 (cellInts v w [3, 3] [3]) [] (f64sBytes o (p.2.doubles cv))

/-- Arrays by shape. -/
def scalars (d : Dict String NpArr) : Dict String NpArr := d.filter fun p => Scalar p.2
def vectors (d : Dict String NpArr) : Dict String NpArr := d.filter fun p => p.2.shape.length = 2
def tensors (d : Dict String NpArr) : Dict String NpArr := d.filter fun p => p.2.shape.length = 3

theorem varSecs_eq : varSecs o v cv w =
    (scalars w.nodes).map (nodeScSec o v cv w) ++ (vectors w.nodes).map (nodeVecSec o cv w) ++
    (scalars w.cells.data).map (cellScSec o v cv w) ++ (vectors w.cells.data).map (cellVecSec o v cv w) ++
    (tensors w.cells.data).map (cellTenSec o v cv w) := by
  cases v <;> rfl

/-- Arrays that V3 can write as scalars: doubles, or 64-bit integers. -/
def Ready (v : Ver) (a : NpArr) : Prop :=
  v = .v3 → (∃ l, a.data = .f64 l) ∨ ∃ l, a.data = .i64 l ∧ ∀ x ∈ l, FitsInt 8 x

theorem doubles_length (a : NpArr) : (a.doubles cv).length = a.size := by
  unfold NpArr.doubles NpArr.size
  split <;> simp

theorem readScalar_ok {q n : Nat} {c : Bytes} {idF idI : Int} {a : NpArr} (hr : Ready v a) (hs : a.shape = [n])
    (hz : a.size = n) (hid : ¬ (idF = cNoII1 ∨ idF = cCvII1)) (hid2 : idI = cNoII1 ∨ idI = cCvII1)
    (ha : At file q (scPay o v cv a ++ c)) :
    readScalar file o (scId v idF idI a) q n = .ok (stored v cv a) := by
  unfold readScalar
  cases v with
  | v2 =>
    have h1 := At.readF64 (n := n) ha (by rw [doubles_length, hz])
    simp only [scId, hid, if_false, h1, Except_bind_ok, Except_pure, stored]
    simp [doubles_length, hz, hs]
  | v3 =>
    obtain ⟨shape, data⟩ := a
    simp only at hs
    subst hs
    rcases hr rfl with ⟨l, hl⟩ | ⟨l, hl, hf⟩
    · simp only at hl
      subst hl
      have h1 := At.readF64 (n := n) ha (by simpa [NpArr.size] using (congrArg (fun k : Nat => (k : Int)) hz).symm)
      simp only [scId, isI64, hid, if_false, h1, Except_bind_ok, Except_pure, stored, Bool.false_eq_true, false_and,
        and_false, NpArr.doubles]
      simp only [NpArr.size] at hz
      rw [hz]
    · simp only at hl
      subst hl
      have h1 := At.readI64 (n := n) ha hf (by simpa [NpArr.size] using (congrArg (fun k : Nat => (k : Int)) hz).symm)
      simp only [scId, isI64, if_true, hid2, h1, Except_bind_ok, Except_pure, stored, orRaise]
      simp only [NpArr.size] at hz
      simp [hz]

theorem scPay_length {a : NpArr} (hr : Ready v a) : (scPay o v cv a).length = 8 * a.size := by
  unfold scPay
  cases v with
  | v2 => simp [doubles_length]
  | v3 =>
    obtain ⟨shape, data⟩ := a
    rcases hr rfl with ⟨l, hl⟩ | ⟨l, hl, hf⟩ <;> simp only at hl <;> subst hl <;> simp [scalarPayload, NpArr.size]

theorem stored_size (a : NpArr) : (stored v cv a).size = a.size := by
  unfold stored
  split
  · rfl
  · simp [NpArr.size, doubles_length]

theorem stored_shape (a : NpArr) : (stored v cv a).shape = a.shape := by
  unfold stored
  split <;> rfl

theorem readRows_ok {q n : Nat} {c : Bytes} {a : NpArr} {tail : List Nat} (hs : a.shape = n :: tail)
    (ht : tail ≠ []) (hz : a.size = a.shape.prod) (ha : At file q (f64sBytes o (a.doubles cv) ++ c)) :
    readRows file o q n tail = .ok (stored v cv a) := by
  unfold readRows
  rw [hs, List.prod_cons] at hz
  have h1 := ha.readF64 (n := (n : Int) * (tail.prod : Nat)) (by rw [doubles_length, hz]; simp)
  rw [h1]
  have hn : ¬ (v = .v3 ∧ isI64 a = true ∧ a.shape.length = 1) := by
    rw [hs]
    rintro ⟨_, _, h⟩
    simp only [List.length_cons, Nat.add_eq_right, List.length_eq_zero_iff] at h
    exact ht h
  unfold stored
  rw [if_neg hn]
  simp only [Except_bind_ok, orRaise, Except_pure, hs, Int.toNat_natCast]

/-- Attributes of the cell data after reading an array of `dof` degrees of freedom. -/
def attrsDof (a : DataAttrs) (dof : Int) : DataAttrs :=
  if 1 < dof then { a with xrep := "spectralcell", ndof := dof } else a

theorem setNdofAttrs_ok {a : DataAttrs} (dof : Int) (h : a.cls = .dataSet) :
    setNdofAttrs a dof = .ok (attrsDof a dof) := by
  unfold setNdofAttrs attrsDof
  split
  · have : "spectralcell" ∈ DataClass.xreps .dataSet := by decide
    simp [DataAttrs.setXrep, DataAttrs.setNdof, h, this, pyAssert, Except_bind_ok, Except_pure]
  · rfl

theorem cellInts_zero {i2 i3 : List Int} {n : String} {i : Int} {r : List F64} {p : Bytes} :
    (sec n i (cellInts v w i2 i3) r p).h.int 0 = w.ncv := by
  have : 0 < (cellInts v w i2 i3).length := by cases v <;> simp [cellInts]
  rw [sec_int _ _ _ _ _ 0 this]
  cases v <;> rfl

theorem cellInts_ndof {i2 i3 : List Int} {n : String} {i : Int} {r : List F64} {p : Bytes}
    (hd : 1 ≤ WState.dof v w) :
    ndofOf v.num ((sec n i (cellInts v w i2 i3) r p).h.int 1) = .ok (WState.dof v w) := by
  cases v with
  | v2 => rfl
  | v3 =>
    have : 1 < (cellInts .v3 w i2 i3).length := by simp [cellInts]
    rw [sec_int _ _ _ _ _ 1 this]
    simp only [WState.dof] at hd ⊢
    simp only [cellInts, List.getElem_cons_succ, List.getElem_cons_zero]
    unfold ndofOf
    rw [if_neg (by decide), if_neg (by decide), if_neg (by omega)]

theorem stats_ok {a : NpArr} (h : a.size ≠ 0) : stats a = .ok () := by
  unfold stats
  rw [if_neg h]

/-- States after the sections. -/
def nodeSc (v : Ver) (cv : Conv) (s : RVars) (p : String × NpArr) : RVars :=
  { s with nodes := s.nodes.set p.1 (stored v cv p.2), varNodes := s.varNodes.set p.1 (stored v cv p.2) }
def nodeVec (v : Ver) (cv : Conv) (s : RVars) (p : String × NpArr) : RVars :=
  { s with varNodes := s.varNodes.set p.1 (stored v cv p.2) }
def cellArr (v : Ver) (cv : Conv) (dof : Int) (s : RVars) (p : String × NpArr) : RVars :=
  { s with attrs := attrsDof s.attrs dof, cells := s.cells.set p.1 (stored v cv p.2) }

theorem nodeSc_step {s : RVars} {q : Nat} {c : Bytes} {p : String × NpArr} (version : Int) (hr : Ready v p.2)
    (hs : p.2.shape = [w.nno]) (hz : p.2.size = w.nno) (h0 : 0 < w.nno)
    (ha : At file q ((nodeScSec o v cv w p).payload ++ c)) :
    scalarStep file o version w.nno w.nfa w.ncv s (nodeScSec o v cv w p).h q =
      .ok (nodeSc v cv s p, (nodeScSec o v cv w p).payload.length, true) := by
  have hm := ha.moved (n := 8 * (w.nno : Int).toNat) (by
    simp only [nodeScSec, sec_payload, scPay_length hr, hz, Int.toNat_natCast])
  have hr := readScalar_ok (idF := cNoD1) (idI := cNoII1) hr hs hz (by decide) (by decide) ha
  have hp : (nodeScSec o v cv w p).payload.length = 8 * (w.nno : Int).toNat := by
    simp only [nodeScSec, sec_payload, scPay_length ‹Ready v p.2›, hz, Int.toNat_natCast]
  unfold scalarStep
  rw [hp]
  have hi : (nodeScSec o v cv w p).h.int 0 = w.nno := by
    rw [nodeScSec, sec_int _ _ _ _ _ 0 (by simp)]; rfl
  rw [if_pos hi, show (nodeScSec o v cv w p).h.id = scId v cNoD1 cNoII1 p.2 from rfl, hr]
  rw [Except_bind_ok, stats_ok (by rw [stored_size]; omega), Except_bind_ok, hm]
  rfl

theorem nodeVec_step {s : RVars} {q : Nat} {c : Bytes} {p : String × NpArr} (version : Int) (v : Ver)
    (hs : p.2.shape = [w.nno, 3]) (hz : p.2.size = p.2.shape.prod) (h0 : 0 < w.nno)
    (ha : At file q ((nodeVecSec o cv w p).payload ++ c)) :
    vectorStep file o version w.nno w.nfa w.ncv s (nodeVecSec o cv w p).h q =
      .ok (nodeVec v cv s p, (nodeVecSec o cv w p).payload.length, true) := by
  have hz' : p.2.size = w.nno * 3 := by rw [hz, hs]; simp
  have hp : (nodeVecSec o cv w p).payload.length = 8 * ((w.nno : Int) * 3).toNat := by
    simp only [nodeVecSec, sec_payload, length_f64sBytes, doubles_length, hz']; omega
  have hm := ha.moved hp.symm
  have hr := readRows_ok (v := v) hs (by simp) hz ha
  unfold vectorStep
  rw [hp]
  have hi : (nodeVecSec o cv w p).h.int 0 = w.nno := by
    rw [nodeVecSec, sec_int _ _ _ _ _ 0 (by simp)]; rfl
  rw [if_pos hi, hr, Except_bind_ok, stats_ok (by rw [stored_size]; omega), Except_bind_ok, hm]
  rfl

section
variable (hn : w.ncv ≠ w.nno) (hf : w.ncv ≠ w.nfa) (h0 : 0 < w.ncv) (hd : 1 ≤ WState.dof v w)
include hn hf h0 hd

theorem cellSc_step {s : RVars} {q : Nat} {c : Bytes} {p : String × NpArr} (hr : Ready v p.2)
    (hcls : s.attrs.cls = .dataSet)
    (hs : p.2.shape = [(WState.dof v w * w.ncv).toNat]) (hz : p.2.size = (WState.dof v w * w.ncv).toNat)
    (ha : At file q ((cellScSec o v cv w p).payload ++ c)) :
    scalarStep file o v.num w.nno w.nfa w.ncv s (cellScSec o v cv w p).h q =
      .ok (cellArr v cv (WState.dof v w) s p, (cellScSec o v cv w p).payload.length, true) := by
  have hpos : 0 < WState.dof v w * w.ncv := Int.mul_pos (by omega) (by omega)
  have hp : (cellScSec o v cv w p).payload.length = 8 * (WState.dof v w * w.ncv).toNat := by
    simp only [cellScSec, sec_payload, scPay_length hr, hz]
  have hm := ha.moved hp.symm
  have hr := readScalar_ok (idF := cCvD1) (idI := cCvII1) hr hs hz (by decide) (by decide) ha
  rw [Int.toNat_of_nonneg (by omega)] at hr
  unfold scalarStep
  rw [hp]
  have hi : (cellScSec o v cv w p).h.int 0 = w.ncv := cellInts_zero
  rw [hi, if_neg (by omega), if_neg (by omega), if_pos rfl,
    show (cellScSec o v cv w p).h.id = scId v cCvD1 cCvII1 p.2 from rfl]
  have hnd := cellInts_ndof (v := v) (w := w) (i2 := []) (i3 := []) (n := p.1) (i := scId v cCvD1 cCvII1 p.2)
    (r := []) (p := scPay o v cv p.2) hd
  rw [show (cellScSec o v cv w p).h = (sec p.1 (scId v cCvD1 cCvII1 p.2) (cellInts v w [] []) [] (scPay o v cv p.2)).h
    from rfl, hnd, Except_bind_ok, setNdofAttrs_ok _ hcls, Except_bind_ok, hr, Except_bind_ok,
    stats_ok (by rw [stored_size]; omega), Except_bind_ok, hm]
  rfl

theorem cellVec_step {s : RVars} {q : Nat} {c : Bytes} {p : String × NpArr}
    (hcls : s.attrs.cls = .dataSet)
    (hs : p.2.shape = [(WState.dof v w * w.ncv).toNat, 3]) (hz : p.2.size = p.2.shape.prod)
    (ha : At file q ((cellVecSec o v cv w p).payload ++ c)) :
    vectorStep file o v.num w.nno w.nfa w.ncv s (cellVecSec o v cv w p).h q =
      .ok (cellArr v cv (WState.dof v w) s p, (cellVecSec o v cv w p).payload.length, true) := by
  have hpos : 0 < WState.dof v w * w.ncv := Int.mul_pos (by omega) (by omega)
  have hz' : p.2.size = (WState.dof v w * w.ncv).toNat * 3 := by rw [hz, hs]; simp
  have hp : (cellVecSec o v cv w p).payload.length = 8 * (WState.dof v w * w.ncv * 3).toNat := by
    simp only [cellVecSec, sec_payload, length_f64sBytes, doubles_length, hz']; omega
  have hm := ha.moved hp.symm
  have hr := readRows_ok (v := v) hs (by simp) hz ha
  rw [Int.toNat_of_nonneg (by omega)] at hr
  unfold vectorStep
  rw [hp]
  have hi : (cellVecSec o v cv w p).h.int 0 = w.ncv := cellInts_zero
  rw [hi, if_neg (by omega), if_neg (by omega), if_pos rfl]
  have hnd := cellInts_ndof (v := v) (w := w) (i2 := [3]) (i3 := []) (n := p.1) (i := cCvD3)
    (r := []) (p := f64sBytes o (p.2.doubles cv)) hd
  rw [show (cellVecSec o v cv w p).h = (sec p.1 cCvD3 (cellInts v w [3] []) [] (f64sBytes o (p.2.doubles cv))).h
    from rfl, hnd, Except_bind_ok, setNdofAttrs_ok _ hcls, Except_bind_ok, hr, Except_bind_ok,
    stats_ok (by rw [stored_size]; omega), Except_bind_ok, hm]
  rfl

theorem cellTen_step {s : RVars} {q : Nat} {c : Bytes} {p : String × NpArr}
    (hcls : s.attrs.cls = .dataSet)
    (hs : p.2.shape = [(WState.dof v w * w.ncv).toNat, 3, 3]) (hz : p.2.size = p.2.shape.prod)
    (ha : At file q ((cellTenSec o v cv w p).payload ++ c)) :
    tensorStep file o v.num w.ncv s (cellTenSec o v cv w p).h q =
      .ok (cellArr v cv (WState.dof v w) s p, (cellTenSec o v cv w p).payload.length, true) := by
  have hpos : 0 < WState.dof v w * w.ncv := Int.mul_pos (by omega) (by omega)
  have hz' : p.2.size = (WState.dof v w * w.ncv).toNat * 9 := by rw [hz, hs]; simp
  have hp : (cellTenSec o v cv w p).payload.length = 8 * (WState.dof v w * w.ncv * 9).toNat := by
    simp only [cellTenSec, sec_payload, length_f64sBytes, doubles_length, hz']; omega
  have hm := ha.moved hp.symm
  have hr := readRows_ok (v := v) hs (by simp) hz ha
  rw [Int.toNat_of_nonneg (by omega)] at hr
  unfold tensorStep
  rw [hp]
  have hi : (cellTenSec o v cv w p).h.int 0 = w.ncv := cellInts_zero
  rw [hi, if_pos rfl]
  have hnd := cellInts_ndof (v := v) (w := w) (i2 := [3, 3]) (i3 := [3]) (n := p.1) (i := cCvD33)
    (r := []) (p := f64sBytes o (p.2.doubles cv)) hd
  rw [show (cellTenSec o v cv w p).h = (sec p.1 cCvD33 (cellInts v w [3, 3] [3]) [] (f64sBytes o (p.2.doubles cv))).h
    from rfl, hnd, Except_bind_ok, setNdofAttrs_ok _ hcls, Except_bind_ok, hr, Except_bind_ok,
    stats_ok (by rw [stored_size]; omega), Except_bind_ok, hm]
  rfl

end

/-- A name and what the file keeps of its array. -/
def keep (v : Ver) (cv : Conv) (p : String × NpArr) : String × NpArr := (p.1, stored v cv p.2)

/-- The data read from the file. -/
def varsRead (v : Ver) (cv : Conv) (w : WState) : RVars where
  attrs := if w.cells.data = [] then vars0.attrs else attrsDof vars0.attrs (WState.dof v w)
  cells := (scalars w.cells.data ++ vectors w.cells.data ++ tensors w.cells.data).map (keep v cv)
  nodes := (scalars w.nodes).map (keep v cv)
  varNodes := (scalars w.nodes ++ vectors w.nodes).map (keep v cv)
  varFaces := []

theorem attrsDof_idem (a : DataAttrs) (d : Int) : attrsDof (attrsDof a d) d = attrsDof a d := by
  unfold attrsDof
  split <;> rfl

theorem attrsDof_cls (a : DataAttrs) (d : Int) : (attrsDof a d).cls = a.cls := by
  unfold attrsDof
  split <;> rfl

theorem foldl_cellArr (l : Dict String NpArr) (d : Int) (s : RVars) :
    l.foldl (cellArr v cv d) s = { s with
      attrs := (if l = [] then s.attrs else attrsDof s.attrs d),
      cells := l.foldl (fun d p => d.set p.1 (stored v cv p.2)) s.cells } := by
  induction l generalizing s with
  | nil => rfl
  | cons x t ih =>
    rw [List.foldl_cons, ih]
    simp only [cellArr, List.foldl_cons, attrsDof_idem, ite_self, reduceCtorEq, if_false]

theorem foldl_nodeSc (l : Dict String NpArr) (s : RVars) :
    l.foldl (nodeSc v cv) s = { s with
      nodes := l.foldl (fun d p => d.set p.1 (stored v cv p.2)) s.nodes,
      varNodes := l.foldl (fun d p => d.set p.1 (stored v cv p.2)) s.varNodes } := by
  induction l generalizing s with
  | nil => rfl
  | cons x t ih => rw [List.foldl_cons, ih]; rfl

theorem foldl_nodeVec (l : Dict String NpArr) (s : RVars) :
    l.foldl (nodeVec v cv) s = { s with
      varNodes := l.foldl (fun d p => d.set p.1 (stored v cv p.2)) s.varNodes } := by
  induction l generalizing s with
  | nil => rfl
  | cons x t ih => rw [List.foldl_cons, ih]; rfl

theorem scalar_shape {n : Nat} {a : NpArr} (h : GoodArr n a) (hn : 0 < n) (hs : Scalar a = true) :
    a.shape = [n] ∧ a.size = n := by
  obtain ⟨h1, h2⟩ := h
  unfold Scalar at hs
  rcases h1 with h1 | h1 | h1 <;> rw [h1] at hs h2 <;> simp at hs h2
  · exact ⟨h1, hs⟩
  · omega
  · omega

theorem vector_shape {n : Nat} {a : NpArr} (h : GoodArr n a) (hs : a.shape.length = 2) : a.shape = [n, 3] := by
  rcases h.1 with h1 | h1 | h1 <;> rw [h1] at hs <;> simp at hs
  exact h1

theorem tensor_shape {n : Nat} {a : NpArr} (h : GoodArr n a) (hs : a.shape.length = 3) : a.shape = [n, 3, 3] := by
  rcases h.1 with h1 | h1 | h1 <;> rw [h1] at hs <;> simp at hs
  exact h1

theorem shape_cases {n : Nat} {a : NpArr} (h : GoodArr n a) :
    (Scalar a = true ∨ a.shape.length = 2 ∨ a.shape.length = 3) := by
  obtain ⟨h1, h2⟩ := h
  rcases h1 with h1 | h1 | h1
  · left
    unfold Scalar
    rw [h1] at h2 ⊢
    simpa using h2
  · right; left; rw [h1]; rfl
  · right; right; rw [h1]; rfl

theorem sorted_nodup {d : Dict String NpArr} {n : Nat} (hk : d.keys.Nodup) (hg : ∀ p ∈ d, GoodArr n p.2) (hn : d ≠ [] → 0 < n) :
    (scalars d ++ vectors d ++ tensors d).Perm d := by
  have hd : d.Nodup := List.Nodup.of_map _ hk
  refine (List.perm_ext_iff_of_nodup ?_ hd).2 ?_
  · rw [List.nodup_append, List.nodup_append]
    refine ⟨⟨hd.filter _, hd.filter _, ?_⟩, hd.filter _, ?_⟩
    · rintro x hx y hy rfl
      obtain ⟨h1, h2⟩ := List.mem_filter.1 hx
      obtain ⟨_, h3⟩ := List.mem_filter.1 hy
      have := (scalar_shape (hg x h1) (hn (List.ne_nil_of_mem h1)) h2).1
      rw [this] at h3
      simp at h3
    · rintro x hx y hy rfl
      obtain ⟨_, h3⟩ := List.mem_filter.1 hy
      rcases List.mem_append.1 hx with hx | hx
      · obtain ⟨h1, h2⟩ := List.mem_filter.1 hx
        have := (scalar_shape (hg x h1) (hn (List.ne_nil_of_mem h1)) h2).1
        rw [this] at h3
        simp at h3
      · obtain ⟨h1, h2⟩ := List.mem_filter.1 hx
        simp only [decide_eq_true_eq] at h2 h3
        omega
  · intro x
    simp only [List.mem_append, scalars, vectors, tensors, List.mem_filter, decide_eq_true_eq]
    constructor
    · rintro ((h | h) | h) <;> exact h.1
    · intro h
      rcases shape_cases (hg x h) with h1 | h1 | h1
      · exact .inl (.inl ⟨h, h1⟩)
      · exact .inl (.inr ⟨h, h1⟩)
      · exact .inr ⟨h, h1⟩

theorem keys_map_keep (l : Dict String NpArr) : Dict.keys (l.map (keep v cv)) = l.keys := by
  unfold Dict.keys
  rw [List.map_map]
  rfl

theorem foldl_keep (l d : Dict String NpArr) (h : (d.keys ++ l.keys).Nodup) :
    l.foldl (fun d p => d.set p.1 (stored v cv p.2)) d = d ++ l.map (keep v cv) :=
  foldl_set_new l (·.1) (fun p => stored v cv p.2) d h

/-- The data read back. -/
theorem readVars_ok (hF : IsFile o file (bodySecs o v cv w)) (hd : DataOK v w)
    (hrn : ∀ p ∈ w.nodes, Scalar p.2 = true → Ready v p.2)
    (hrc : ∀ p ∈ w.cells.data, Scalar p.2 = true → Ready v p.2) :
    readVars file o v.num w.nno w.nfa w.ncv = .ok (varsRead v cv w) := by
  have h8 := hF.at8
  have hb := hF.body
  have hcpos : w.cells.data ≠ [] → 0 < (WState.dof v w * w.ncv).toNat := by
    intro h
    obtain ⟨h1, h2, _⟩ := hd.someCell h
    have : 0 < WState.dof v w * w.ncv := Int.mul_pos (by omega) (by omega)
    omega
  rw [bodySecs, varSecs_eq, Body.append, Body.append, Body.append, Body.append, Body.append, Body.append] at hb
  obtain ⟨⟨b1, b2⟩, ⟨⟨⟨b3, b4⟩, b5⟩, b6⟩, b7⟩ := hb
  rw [bodySecs, varSecs_eq] at h8
  simp only [secsBytes_append, List.append_assoc] at h8
  -- scalars
  have l1 : sectionLoop file o [cNoD1, cNoII1, cFaD1, cCvD1, cCvII1] (scalarStep file o v.num w.nno w.nfa w.ncv) 8 vars0
      = .ok ((scalars w.cells.data).foldl (cellArr v cv (WState.dof v w))
          ((scalars w.nodes).foldl (nodeSc v cv) vars0)) := by
    obtain ⟨q1, a1, e1⟩ := loop_skip (ids := [cNoD1, cNoII1, cFaD1, cCvD1, cCvII1])
      (step := scalarStep file o v.num w.nno w.nfa w.ncv) (st := vars0) b1 (others_conn (by decide)) h8
    obtain ⟨q2, a2, e2⟩ := loop_skip (ids := [cNoD1, cNoII1, cFaD1, cCvD1, cCvII1])
      (step := scalarStep file o v.num w.nno w.nfa w.ncv) (st := vars0) b2 (others_info (by decide)) a1
    obtain ⟨q3, a3, p3, e3⟩ := loop_map (ids := [cNoD1, cNoII1, cFaD1, cCvD1, cCvII1])
      (step := scalarStep file o v.num w.nno w.nfa w.ncv) (l := scalars w.nodes) (nodeSc v cv)
      (fun s => s.attrs.cls = .dataSet)
      (fun x _ => by
        have : (nodeScSec o v cv w x).h.id = scId v cNoD1 cNoII1 x.2 := rfl
        rw [this]; unfold scId; split
        · decide
        · split <;> decide)
      (fun st x q c hx hP ha => by
        obtain ⟨h1, h2⟩ := List.mem_filter.1 hx
        obtain ⟨h3, h4⟩ := scalar_shape (hd.nodes x h1) (hd.someNode (List.ne_nil_of_mem h1)) h2
        exact ⟨nodeSc_step _ (hrn x h1 h2) h3 h4 (hd.someNode (List.ne_nil_of_mem h1)) ha, hP⟩)
      vars0 rfl b3 a2
    obtain ⟨q4, a4, e4⟩ := loop_skip (ids := [cNoD1, cNoII1, cFaD1, cCvD1, cCvII1])
      (step := scalarStep file o v.num w.nno w.nfa w.ncv) (st := (scalars w.nodes).foldl (nodeSc v cv) vars0) b4
      (Others.map fun x _ => by show cNoD3 ∉ _; decide) a3
    obtain ⟨q5, a5, p5, e5⟩ := loop_map (ids := [cNoD1, cNoII1, cFaD1, cCvD1, cCvII1])
      (step := scalarStep file o v.num w.nno w.nfa w.ncv) (l := scalars w.cells.data) (cellArr v cv (WState.dof v w))
      (fun s => s.attrs.cls = .dataSet)
      (fun x _ => by
        have : (cellScSec o v cv w x).h.id = scId v cCvD1 cCvII1 x.2 := rfl
        rw [this]; unfold scId; split
        · decide
        · split <;> decide)
      (fun st x q c hx hP ha => by
        obtain ⟨h1, h2⟩ := List.mem_filter.1 hx
        have hne := List.ne_nil_of_mem h1
        obtain ⟨c1, c2, c3, c4⟩ := hd.someCell hne
        obtain ⟨h3, h4⟩ := scalar_shape (hd.cells x h1) (hcpos hne) h2
        exact ⟨cellSc_step c3 c4 c1 c2 (hrc x h1 h2) hP h3 h4 ha, by
          show (attrsDof st.attrs _).cls = _
          rw [attrsDof_cls, hP]⟩)
      _ p3 b5 a4
    obtain ⟨q6, a6, e6⟩ := loop_skip (ids := [cNoD1, cNoII1, cFaD1, cCvD1, cCvII1])
      (step := scalarStep file o v.num w.nno w.nfa w.ncv)
      (st := (scalars w.cells.data).foldl (cellArr v cv (WState.dof v w)) ((scalars w.nodes).foldl (nodeSc v cv) vars0)) b6
      (Others.map fun x _ => by show cCvD3 ∉ _; decide) a5
    obtain ⟨q7, a7, e7⟩ := loop_skip (ids := [cNoD1, cNoII1, cFaD1, cCvD1, cCvII1])
      (step := scalarStep file o v.num w.nno w.nfa w.ncv)
      (st := (scalars w.cells.data).foldl (cellArr v cv (WState.dof v w)) ((scalars w.nodes).foldl (nodeSc v cv) vars0)) b7
      (Others.map fun x _ => by show cCvD33 ∉ _; decide) a6
    rw [e1, e2, e3, e4, e5, e6, e7]
    exact loop_end _ (by decide) a7
  have hc1 : ((scalars w.cells.data).foldl (cellArr v cv (WState.dof v w))
          ((scalars w.nodes).foldl (nodeSc v cv) vars0)).attrs.cls = .dataSet := by
    rw [foldl_cellArr, foldl_nodeSc]
    simp only
    split
    · rfl
    · rw [attrsDof_cls]; rfl
  generalize hs1 : (scalars w.cells.data).foldl (cellArr v cv (WState.dof v w))
          ((scalars w.nodes).foldl (nodeSc v cv) vars0) = s1 at l1 hc1
  -- vectors
  have l2 : sectionLoop file o [cNoD3, cFaD3, cCvD3] (vectorStep file o v.num w.nno w.nfa w.ncv) 8 s1
      = .ok ((vectors w.cells.data).foldl (cellArr v cv (WState.dof v w))
          ((vectors w.nodes).foldl (nodeVec v cv) s1)) := by
    obtain ⟨q1, a1, e1⟩ := loop_skip (ids := [cNoD3, cFaD3, cCvD3])
      (step := vectorStep file o v.num w.nno w.nfa w.ncv) (st := s1) b1 (others_conn (by decide)) h8
    obtain ⟨q2, a2, e2⟩ := loop_skip (ids := [cNoD3, cFaD3, cCvD3])
      (step := vectorStep file o v.num w.nno w.nfa w.ncv) (st := s1) b2 (others_info (by decide)) a1
    obtain ⟨q3, a3, e3⟩ := loop_skip (ids := [cNoD3, cFaD3, cCvD3])
      (step := vectorStep file o v.num w.nno w.nfa w.ncv) (st := s1) b3
      (Others.map fun x _ => by
        have : (nodeScSec o v cv w x).h.id = scId v cNoD1 cNoII1 x.2 := rfl
        rw [this]; unfold scId; split
        · decide
        · split <;> decide) a2
    obtain ⟨q4, a4, p4, e4⟩ := loop_map (ids := [cNoD3, cFaD3, cCvD3])
      (step := vectorStep file o v.num w.nno w.nfa w.ncv) (l := vectors w.nodes) (nodeVec v cv)
      (fun s => s.attrs.cls = .dataSet)
      (fun x _ => by show cNoD3 ∈ _; decide)
      (fun st x q c hx hP ha => by
        obtain ⟨h1, h2⟩ := List.mem_filter.1 hx
        have h3 := vector_shape (hd.nodes x h1) (by simpa using h2)
        exact ⟨nodeVec_step _ v h3 (hd.nodes x h1).2 (hd.someNode (List.ne_nil_of_mem h1)) ha, hP⟩)
      s1 hc1 b4 a3
    obtain ⟨q5, a5, e5⟩ := loop_skip (ids := [cNoD3, cFaD3, cCvD3])
      (step := vectorStep file o v.num w.nno w.nfa w.ncv) (st := (vectors w.nodes).foldl (nodeVec v cv) s1) b5
      (Others.map fun x _ => by
        have : (cellScSec o v cv w x).h.id = scId v cCvD1 cCvII1 x.2 := rfl
        rw [this]; unfold scId; split
        · decide
        · split <;> decide) a4
    obtain ⟨q6, a6, p6, e6⟩ := loop_map (ids := [cNoD3, cFaD3, cCvD3])
      (step := vectorStep file o v.num w.nno w.nfa w.ncv) (l := vectors w.cells.data) (cellArr v cv (WState.dof v w))
      (fun s => s.attrs.cls = .dataSet)
      (fun x _ => by show cCvD3 ∈ _; decide)
      (fun st x q c hx hP ha => by
        obtain ⟨h1, h2⟩ := List.mem_filter.1 hx
        have hne := List.ne_nil_of_mem h1
        obtain ⟨c1, c2, c3, c4⟩ := hd.someCell hne
        have h3 := vector_shape (hd.cells x h1) (by simpa using h2)
        exact ⟨cellVec_step c3 c4 c1 c2 hP h3 (hd.cells x h1).2 ha, by
          show (attrsDof st.attrs _).cls = _
          rw [attrsDof_cls, hP]⟩)
      _ p4 b6 a5
    obtain ⟨q7, a7, e7⟩ := loop_skip (ids := [cNoD3, cFaD3, cCvD3])
      (step := vectorStep file o v.num w.nno w.nfa w.ncv)
      (st := (vectors w.cells.data).foldl (cellArr v cv (WState.dof v w)) ((vectors w.nodes).foldl (nodeVec v cv) s1)) b7
      (Others.map fun x _ => by show cCvD33 ∉ _; decide) a6
    rw [e1, e2, e3, e4, e5, e6, e7]
    exact loop_end _ (by decide) a7
  have hc2 : ((vectors w.cells.data).foldl (cellArr v cv (WState.dof v w))
          ((vectors w.nodes).foldl (nodeVec v cv) s1)).attrs.cls = .dataSet := by
    rw [foldl_cellArr, foldl_nodeVec]
    simp only
    split
    · exact hc1
    · rw [attrsDof_cls]; exact hc1
  generalize hs2 : (vectors w.cells.data).foldl (cellArr v cv (WState.dof v w))
          ((vectors w.nodes).foldl (nodeVec v cv) s1) = s2 at l2 hc2
  -- tensors
  have l3 : sectionLoop file o [cCvD33] (tensorStep file o v.num w.ncv) 8 s2
      = .ok ((tensors w.cells.data).foldl (cellArr v cv (WState.dof v w)) s2) := by
    obtain ⟨q1, a1, e1⟩ := loop_skip (ids := [cCvD33])
      (step := tensorStep file o v.num w.ncv) (st := s2) b1 (others_conn (by decide)) h8
    obtain ⟨q2, a2, e2⟩ := loop_skip (ids := [cCvD33])
      (step := tensorStep file o v.num w.ncv) (st := s2) b2 (others_info (by decide)) a1
    obtain ⟨q3, a3, e3⟩ := loop_skip (ids := [cCvD33])
      (step := tensorStep file o v.num w.ncv) (st := s2) b3
      (Others.map fun x _ => by
        have : (nodeScSec o v cv w x).h.id = scId v cNoD1 cNoII1 x.2 := rfl
        rw [this]; unfold scId; split
        · decide
        · split <;> decide) a2
    obtain ⟨q4, a4, e4⟩ := loop_skip (ids := [cCvD33])
      (step := tensorStep file o v.num w.ncv) (st := s2) b4
      (Others.map fun x _ => by show cNoD3 ∉ _; decide) a3
    obtain ⟨q5, a5, e5⟩ := loop_skip (ids := [cCvD33])
      (step := tensorStep file o v.num w.ncv) (st := s2) b5
      (Others.map fun x _ => by
        have : (cellScSec o v cv w x).h.id = scId v cCvD1 cCvII1 x.2 := rfl
        rw [this]; unfold scId; split
        · decide
        · split <;> decide) a4
    obtain ⟨q6, a6, e6⟩ := loop_skip (ids := [cCvD33])
      (step := tensorStep file o v.num w.ncv) (st := s2) b6
      (Others.map fun x _ => by show cCvD3 ∉ _; decide) a5
    obtain ⟨q7, a7, p7, e7⟩ := loop_map (ids := [cCvD33])
      (step := tensorStep file o v.num w.ncv) (l := tensors w.cells.data) (cellArr v cv (WState.dof v w))
      (fun s => s.attrs.cls = .dataSet)
      (fun x _ => by show cCvD33 ∈ _; decide)
      (fun st x q c hx hP ha => by
        obtain ⟨h1, h2⟩ := List.mem_filter.1 hx
        have hne := List.ne_nil_of_mem h1
        obtain ⟨c1, c2, c3, c4⟩ := hd.someCell hne
        have h3 := tensor_shape (hd.cells x h1) (by simpa using h2)
        exact ⟨cellTen_step c3 c4 c1 c2 hP h3 (hd.cells x h1).2 ha, by
          show (attrsDof st.attrs _).cls = _
          rw [attrsDof_cls, hP]⟩)
      _ hc2 b7 a6
    rw [e1, e2, e3, e4, e5, e6, e7]
    exact loop_end _ (by decide) a7
  unfold readVars
  rw [l1, Except_bind_ok, l2, Except_bind_ok, l3]
  congr 1
  have pc := sorted_nodup hd.cellKeys hd.cells hcpos
  have pn := sorted_nodup hd.nodeKeys hd.nodes hd.someNode
  have kc : (Dict.keys (scalars w.cells.data) ++ Dict.keys (vectors w.cells.data) ++ Dict.keys (tensors w.cells.data)).Nodup := by
    have := (pc.map (Prod.fst (α := String) (β := NpArr))).nodup_iff.2 hd.cellKeys
    simpa [Dict.keys] using this
  have kn : (Dict.keys (scalars w.nodes) ++ Dict.keys (vectors w.nodes)).Nodup := by
    have := (pn.map (Prod.fst (α := String) (β := NpArr))).nodup_iff.2 hd.nodeKeys
    rw [List.map_append] at this
    have := this.of_append_left
    simpa [Dict.keys] using this
  have knil : Dict.keys ([] : Dict String NpArr) = [] := rfl
  rw [← hs2, ← hs1, foldl_cellArr, foldl_cellArr, foldl_nodeVec, foldl_cellArr, foldl_nodeSc]
  have emp : w.cells.data = [] ↔ scalars w.cells.data = [] ∧ vectors w.cells.data = [] ∧ tensors w.cells.data = [] := by
    have := pc.length_eq
    constructor
    · intro h; rw [h]; exact ⟨rfl, rfl, rfl⟩
    · rintro ⟨h1, h2, h3⟩
      rw [h1, h2, h3] at this
      exact List.length_eq_zero_iff.1 this.symm
  simp only [varsRead, vars0, RVars.mk.injEq]
  refine ⟨?_, ?_, ?_, ?_, trivial⟩
  · by_cases h1 : scalars w.cells.data = [] <;> by_cases h2 : vectors w.cells.data = [] <;>
      by_cases h3 : tensors w.cells.data = [] <;> simp [emp, h1, h2, h3, attrsDof_idem]
  · rw [foldl_keep (scalars w.cells.data) [] (by rw [knil]; exact kc.of_append_left.of_append_left)]
    rw [foldl_keep (vectors w.cells.data) _ (by rw [List.nil_append, keys_map_keep]; exact kc.of_append_left),
      foldl_keep]
    · simp
    · rw [List.nil_append]
      have : Dict.keys ((scalars w.cells.data).map (keep v cv) ++ (vectors w.cells.data).map (keep v cv)) =
          Dict.keys (scalars w.cells.data) ++ Dict.keys (vectors w.cells.data) := by
        rw [← keys_map_keep (v := v) (cv := cv) (scalars w.cells.data),
          ← keys_map_keep (v := v) (cv := cv) (vectors w.cells.data)]
        simp [Dict.keys]
      rw [this]; exact kc
  · rw [foldl_keep _ _ (by rw [knil]; exact kn.of_append_left)]; rfl
  · rw [foldl_keep (scalars w.nodes) [] (by rw [knil]; exact kn.of_append_left), foldl_keep]
    · simp
    · rw [List.nil_append, keys_map_keep]; exact kn

end Cfd.Ic3
