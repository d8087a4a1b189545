import Verif.Lemmas.Ic3Foreign

/-! What the reader makes of the sections of a file. -/

namespace Cfd.Ic3
open Spec Spec.Ic3

variable {file c : Bytes} {o : Order} {q : Nat} {s : Sec}

theorem At.self (b : Bytes) : At b 0 (b ++ []) := ⟨[], by simp, rfl⟩

theorem At.readF64_zero {n : Int} (h : At file q (s.payload ++ c)) (hn : 8 * n.toNat ≤ s.payload.length) :
    Ic3.readF64 file o q n = Ic3.readF64 s.payload o 0 n := by
  have := h.readF64_local (o := o) (k := 0) (n := n) (by omega)
  simpa using this

theorem At.readI64_zero {n : Int} (h : At file q (s.payload ++ c)) (hn : 8 * n.toNat ≤ s.payload.length) :
    Ic3.readI64 file o q n = Ic3.readI64 s.payload o 0 n := by
  have := h.readI64_local (o := o) (k := 0) (n := n) (by omega)
  simpa using this

theorem At.readI32_zero {n : Int} (h : At file q (s.payload ++ c)) (hn : 4 * n.toNat ≤ s.payload.length) :
    Ic3.readI32 file o q n = Ic3.readI32 s.payload o 0 n := by
  have := h.readI32_local (o := o) (k := 0) (n := n) (by omega)
  simpa using this

theorem At.readScalar_zero {id n : Int} (h : At file q (s.payload ++ c)) (hn : 8 * n.toNat ≤ s.payload.length) :
    readScalar file o id q n = readScalar s.payload o id 0 n := by
  unfold readScalar
  rw [h.readI64_zero hn, h.readF64_zero hn]

theorem At.readRows_zero {n : Int} {tail : List Nat} (h : At file q (s.payload ++ c))
    (hn : 8 * (n * (tail.prod : Nat)).toNat ≤ s.payload.length) :
    readRows file o q n tail = readRows s.payload o 0 n tail := by
  unfold readRows
  rw [h.readF64_zero hn]

/-! ## Data -/

/-- What a data section must satisfy. -/
def Sized (ver : Int) (c : Counts) (s : Sec) : Prop :=
  ∀ n, room ver c s.h = some n → (s.payload.length : Int) = n

theorem ndofOf_dofs {ver : Int} {h : Header} {n : Int} (hn : ndofOf ver (h.int 1) = .ok n) : n = dofs ver h := by
  unfold ndofOf at hn
  unfold dofs
  split at hn
  · cases hn
  · split at hn
    · simp only [Except.ok.injEq] at hn; rw [if_pos (.inl (by assumption))]; omega
    · split at hn
      · simp only [Except.ok.injEq] at hn; rw [if_pos (.inr (by assumption))]; omega
      · simp only [Except.ok.injEq] at hn; rw [if_neg (by omega)]; omega

theorem scalar_local {ver no fa cv noofa : Int} (st : RVars) (hid : s.h.id ∈ [cNoD1, cNoII1, cFaD1, cCvD1, cCvII1])
    (hz : Sized ver ⟨no, fa, cv, noofa⟩ s) (h : At file q (s.payload ++ c)) :
    scalarStep file o ver no fa cv st s.h q = scalarStep s.payload o ver no fa cv st s.h 0 ∧
      ∀ st' k, scalarStep s.payload o ver no fa cv st s.h 0 = .ok (st', k, true) → k = s.payload.length := by
  have hself := At.self s.payload
  have hr : room ver ⟨no, fa, cv, noofa⟩ s.h = (if s.h.int 0 = no then some (8 * no) else if s.h.int 0 = fa then some (8 * fa)
      else if s.h.int 0 = cv then some (8 * (dofs ver s.h * cv)) else none) := by
    simp only [List.mem_cons, List.not_mem_nil, or_false, cNoD1, cNoII1, cFaD1, cCvD1, cCvII1] at hid
    unfold room
    rcases hid with e | e | e | e | e <;> rw [e] <;> rfl
  unfold Sized at hz
  rw [hr] at hz
  unfold scalarStep
  by_cases h1 : s.h.int 0 = no
  · rw [if_pos h1] at hz
    have hn := hz _ rfl
    have e : 8 * no.toNat = s.payload.length := by omega
    simp only [if_pos h1, h.readScalar_zero (o := o) (id := s.h.id) (n := no) (by omega), h.moved e, hself.moved e, true_and]
    intro st' k hk
    obtain ⟨_, _, hk⟩ := bind_eq_ok.1 hk
    obtain ⟨_, _, hk⟩ := bind_eq_ok.1 hk
    simp only [Except_pure, Except.ok.injEq, Prod.mk.injEq] at hk
    omega
  · rw [if_neg h1] at hz
    by_cases h2 : s.h.int 0 = fa
    · rw [if_pos h2] at hz
      have hn := hz _ rfl
      have e : 8 * fa.toNat = s.payload.length := by omega
      simp only [if_neg h1, if_pos h2, h.readScalar_zero (o := o) (id := s.h.id) (n := fa) (by omega), h.moved e, hself.moved e, true_and]
      intro st' k hk
      obtain ⟨_, _, hk⟩ := bind_eq_ok.1 hk
      obtain ⟨_, _, hk⟩ := bind_eq_ok.1 hk
      simp only [Except_pure, Except.ok.injEq, Prod.mk.injEq] at hk
      omega
    · rw [if_neg h2] at hz
      by_cases h3 : s.h.int 0 = cv
      · rw [if_pos h3] at hz
        have hn := hz _ rfl
        have e : 8 * (dofs ver s.h * cv).toNat = s.payload.length := by omega
        simp only [if_neg h1, if_neg h2, if_pos h3]
        cases hd : ndofOf ver (s.h.int 1) with
        | error er => exact ⟨rfl, by intro _ _ h; cases h⟩
        | ok n =>
          simp only [Except_bind_ok, ndofOf_dofs hd, h.readScalar_zero (o := o) (id := s.h.id) (n := dofs ver s.h * cv) (by omega),
            h.moved e, hself.moved e, true_and]
          intro st' k hk
          obtain ⟨_, _, hk⟩ := bind_eq_ok.1 hk
          obtain ⟨_, _, hk⟩ := bind_eq_ok.1 hk
          obtain ⟨_, _, hk⟩ := bind_eq_ok.1 hk
          simp only [Except_pure, Except.ok.injEq, Prod.mk.injEq] at hk
          omega
      · simp only [if_neg h1, if_neg h2, if_neg h3, true_and]
        intro _ _ h; cases h

theorem vector_local {ver no fa cv noofa : Int} (st : RVars) (hid : s.h.id ∈ [cNoD3, cFaD3, cCvD3])
    (hz : Sized ver ⟨no, fa, cv, noofa⟩ s) (h : At file q (s.payload ++ c)) :
    vectorStep file o ver no fa cv st s.h q = vectorStep s.payload o ver no fa cv st s.h 0 ∧
      ∀ st' k, vectorStep s.payload o ver no fa cv st s.h 0 = .ok (st', k, true) → k = s.payload.length := by
  have hself := At.self s.payload
  have hr : room ver ⟨no, fa, cv, noofa⟩ s.h = (if s.h.int 0 = no then some (24 * no) else if s.h.int 0 = fa then some (24 * fa)
      else if s.h.int 0 = cv then some (24 * (dofs ver s.h * cv)) else none) := by
    simp only [List.mem_cons, List.not_mem_nil, or_false, cNoD3, cFaD3, cCvD3] at hid
    unfold room
    rcases hid with e | e | e <;> rw [e] <;> rfl
  unfold Sized at hz
  rw [hr] at hz
  have h3' : (([3] : List Nat).prod : Int) = 3 := by decide
  unfold vectorStep
  by_cases h1 : s.h.int 0 = no
  · rw [if_pos h1] at hz
    have hn := hz _ rfl
    have e : 8 * (no * 3).toNat = s.payload.length := by omega
    simp only [if_pos h1, h.readRows_zero (o := o) (n := no) (tail := [3]) (by rw [h3']; omega), h.moved e, hself.moved e, true_and]
    intro st' k hk
    obtain ⟨_, _, hk⟩ := bind_eq_ok.1 hk
    obtain ⟨_, _, hk⟩ := bind_eq_ok.1 hk
    simp only [Except_pure, Except.ok.injEq, Prod.mk.injEq] at hk
    omega
  · rw [if_neg h1] at hz
    by_cases h2 : s.h.int 0 = fa
    · rw [if_pos h2] at hz
      have hn := hz _ rfl
      have e : 8 * (fa * 3).toNat = s.payload.length := by omega
      simp only [if_neg h1, if_pos h2, h.readRows_zero (o := o) (n := fa) (tail := [3]) (by rw [h3']; omega), h.moved e, hself.moved e, true_and]
      intro st' k hk
      obtain ⟨_, _, hk⟩ := bind_eq_ok.1 hk
      obtain ⟨_, _, hk⟩ := bind_eq_ok.1 hk
      simp only [Except_pure, Except.ok.injEq, Prod.mk.injEq] at hk
      omega
    · rw [if_neg h2] at hz
      by_cases h3 : s.h.int 0 = cv
      · rw [if_pos h3] at hz
        have hn := hz _ rfl
        have e : 8 * (dofs ver s.h * cv * 3).toNat = s.payload.length := by omega
        simp only [if_neg h1, if_neg h2, if_pos h3]
        cases hd : ndofOf ver (s.h.int 1) with
        | error er => exact ⟨rfl, by intro _ _ h; cases h⟩
        | ok n =>
          simp only [Except_bind_ok, ndofOf_dofs hd, h.readRows_zero (o := o) (n := dofs ver s.h * cv) (tail := [3]) (by rw [h3']; omega),
            h.moved e, hself.moved e, true_and]
          intro st' k hk
          obtain ⟨_, _, hk⟩ := bind_eq_ok.1 hk
          obtain ⟨_, _, hk⟩ := bind_eq_ok.1 hk
          obtain ⟨_, _, hk⟩ := bind_eq_ok.1 hk
          simp only [Except_pure, Except.ok.injEq, Prod.mk.injEq] at hk
          omega
      · simp only [if_neg h1, if_neg h2, if_neg h3, true_and]
        intro _ _ h; cases h

theorem tensor_local {ver no fa cv noofa : Int} (st : RVars) (hid : s.h.id ∈ [cCvD33])
    (hz : Sized ver ⟨no, fa, cv, noofa⟩ s) (h : At file q (s.payload ++ c)) :
    tensorStep file o ver cv st s.h q = tensorStep s.payload o ver cv st s.h 0 ∧
      ∀ st' k, tensorStep s.payload o ver cv st s.h 0 = .ok (st', k, true) → k = s.payload.length := by
  have hself := At.self s.payload
  have hr : room ver ⟨no, fa, cv, noofa⟩ s.h =
      (if s.h.int 0 = cv then some (72 * (dofs ver s.h * cv)) else none) := by
    simp only [List.mem_cons, List.not_mem_nil, or_false, cCvD33] at hid
    unfold room
    rw [hid]; rfl
  unfold Sized at hz
  rw [hr] at hz
  have h9 : (([3, 3] : List Nat).prod : Int) = 9 := by decide
  unfold tensorStep
  by_cases h3 : s.h.int 0 = cv
  · rw [if_pos h3] at hz
    have hn := hz _ rfl
    have e : 8 * (dofs ver s.h * cv * 9).toNat = s.payload.length := by omega
    simp only [if_pos h3]
    cases hd : ndofOf ver (s.h.int 1) with
    | error er => exact ⟨rfl, by intro _ _ h; cases h⟩
    | ok n =>
      simp only [Except_bind_ok, ndofOf_dofs hd, h.readRows_zero (o := o) (n := dofs ver s.h * cv) (tail := [3, 3]) (by rw [h9]; omega),
        h.moved e, hself.moved e, true_and]
      intro st' k hk
      obtain ⟨_, _, hk⟩ := bind_eq_ok.1 hk
      obtain ⟨_, _, hk⟩ := bind_eq_ok.1 hk
      obtain ⟨_, _, hk⟩ := bind_eq_ok.1 hk
      simp only [Except_pure, Except.ok.injEq, Prod.mk.injEq] at hk
      omega
  · simp only [if_neg h3, true_and]
    intro _ _ h; cases h

/-- The data, from the sections. -/
def varsOf (o : Order) (ver no fa cv : Int) (l : List Sec) : Py RVars := do
  let s ← runLoop (fun st s => scalarStep s.payload o ver no fa cv st s.h 0) (only [cNoD1, cNoII1, cFaD1, cCvD1, cCvII1] l) vars0
  let s ← runLoop (fun st s => vectorStep s.payload o ver no fa cv st s.h 0) (only [cNoD3, cFaD3, cCvD3] l) s
  runLoop (fun st s => tensorStep s.payload o ver cv st s.h 0) (only [cCvD33] l) s

theorem readVars_of {ver no fa cv noofa : Int} {l : List Sec} (hl : Going l) (h : Holds file o 8 l)
    (hz : ∀ s ∈ l, Sized ver ⟨no, fa, cv, noofa⟩ s) : readVars file o ver no fa cv = varsOf o ver no fa cv l := by
  unfold readVars varsOf
  rw [sectionLoop_run (fun st s => scalarStep s.payload o ver no fa cv st s.h 0) (by decide) hl
    (fun st s q c hs hid ha => scalar_local st hid (hz s hs) ha) vars0 h]
  congr 1
  funext st1
  rw [sectionLoop_run (fun st s => vectorStep s.payload o ver no fa cv st s.h 0) (by decide) hl
    (fun st s q c hs hid ha => vector_local st hid (hz s hs) ha) st1 h]
  congr 1
  funext st2
  exact sectionLoop_run (fun st s => tensorStep s.payload o ver cv st s.h 0) (by decide) hl
    (fun st s q c hs hid ha => tensor_local st hid (hz s hs) ha) st2 h

/-! ## Parameters -/

theorem room_zero {ver : Int} {cn : Counts} {h : Header} (hid : h.id = 11 ∨ h.id = 12 ∨ h.id = 23) :
    room ver cn h = some 0 := by
  unfold room; rw [if_pos hid]

theorem readInfo_of {ver : Int} {cn : Counts} {l : List Sec} (hl : Going l) (h : Holds file o 8 l)
    (hz : ∀ s ∈ l, Sized ver cn s) :
    readInfo file o = runLoop (fun st s => infoStep st s.h 0) (only [cI0, cD0] l)
      [("step", .int 0), ("dt", .int 0), ("time", .int 0), ("wgt", .wgts [])] := by
  refine sectionLoop_run (fun st s => infoStep st s.h 0) (by decide) hl (fun st s q c hs hid _ => ⟨rfl, ?_⟩) _ h
  intro st' k hk
  have h0 : (s.payload.length : Int) = 0 := by
    refine hz s hs 0 (room_zero ?_)
    simpa [cI0, cD0] using (Or.imp_right Or.inl (by simpa using hid) : s.h.id = cI0 ∨ s.h.id = cD0 ∨ s.h.id = 23)
  unfold infoStep at hk
  split at hk <;> simp only [Except.ok.injEq, Prod.mk.injEq] at hk <;> omega

/-! ## Mesh -/

/-- A section that must be there. -/
def req (x : Option Sec) : Py Sec := orRaise .runtime x

/-- The checks of consecutive numbers, from the sections. -/
def integrityOf (o : Order) (l : List Sec) (no fa cv : Int) : Py Unit :=
  match first cNoCheck l with
  | none => .ok ()
  | some s => do
    pyAssert (decide (s.h.int 0 = no))
    pyAssert (decide (s.h.id = cNoCheck))
    checkRange s.payload o 0 no
    let s ← req (first cFaCheck l)
    checkRange s.payload o 0 fa
    let s ← req (first cCvCheck l)
    pyAssert (decide (s.h.int 0 = cv))
    pyAssert (decide (s.h.id = cCvCheck))
    checkRange s.payload o 0 cv

theorem At.checkRange_zero {n : Int} (h : At file q (s.payload ++ c)) (hn : (s.payload.length : Int) = 4 * n) :
    checkRange file o q n = checkRange s.payload o 0 n := by
  unfold checkRange
  rw [h.readI32_zero (by omega)]

theorem integrity_of {ver : Int} {cn : Counts} {l : List Sec} (hl : Going l) (h : Holds file o 8 l)
    (hz : ∀ s ∈ l, Sized ver cn s) : integrity file o cn.no cn.fa cn.cv = integrityOf o l cn.no cn.fa cn.cv := by
  unfold integrity integrityOf
  rcases h.scan_first (code := cNoCheck) (by decide) hl with ⟨h1, q, h2⟩ | ⟨s, q, c, h1, h2, h3, h4, h5, _⟩
  · rw [h1, h2]; rfl
  · have z1 : (s.payload.length : Int) = 4 * cn.no := hz s h2 _ (by unfold room; rw [h3]; rfl)
    rw [h1, h4]
    simp only [Except_bind_ok, h5.checkRange_zero z1]
    congr 1; funext _; congr 1; funext _; congr 1; funext _
    rcases h.scanReq_first (code := cFaCheck) (by decide) hl with ⟨h1, h2⟩ | ⟨s, q, c, h1, h2, h3, h4, h5, _⟩
    · rw [h1, h2]; rfl
    · have z1 : (s.payload.length : Int) = 4 * cn.fa := hz s h2 _ (by unfold room; rw [h3]; rfl)
      rw [h1, h4]
      simp only [Except_bind_ok, req, orRaise, h5.checkRange_zero z1]
      congr 1; funext _
      rcases h.scanReq_first (code := cCvCheck) (by decide) hl with ⟨h1, h2⟩ | ⟨s, q, c, h1, h2, h3, h4, h5, _⟩
      · rw [h1, h2]; rfl
      · have z1 : (s.payload.length : Int) = 4 * cn.cv := hz s h2 _ (by unfold room; rw [h3]; rfl)
        rw [h1, h4]
        simp only [Except_bind_ok, h5.checkRange_zero z1]

/-- Faces to nodes, from the section. -/
def noofaOf (o : Order) (s : Sec) (fa noofa : Int) : Py Csr := do
  pyAssert (decide (s.h.int 0 = fa))
  pyAssert (decide (s.h.int 1 = noofa))
  let nno ← orRaise .index (← readI32 s.payload o 0 fa)
  let index := ElemConn.offsets 0 nno
  let a ← npGet index (-2)
  let b ← npGet nno (-1)
  pyAssert (decide (a = noofa - b))
  let value ← orRaise .type (← readI32 s.payload o (4 * fa.toNat) noofa)
  let z : Csr := ⟨index, value⟩
  let _ ← z.check
  return z

theorem readNoofa_of {ver : Int} {cn : Counts} {l : List Sec} (hl : Going l) (h : Holds file o 8 l)
    (hz : ∀ s ∈ l, Sized ver cn s) (h0 : 0 ≤ cn.fa ∧ 0 ≤ cn.noofa) :
    readNoofa file o cn.fa cn.noofa = (req (first cNoofa l) >>= fun s => noofaOf o s cn.fa cn.noofa) := by
  unfold readNoofa
  rcases h.scanReq_first (code := cNoofa) (by decide) hl with ⟨h1, h2⟩ | ⟨s, q, c, h1, h2, h3, h4, h5, _⟩
  · rw [h1, h2]; rfl
  · have z1 : (s.payload.length : Int) = 4 * cn.fa + 4 * cn.noofa := hz s h2 _ (by unfold room; rw [h3]; rfl)
    rw [h1, h4]
    simp only [Except_bind_ok, req]
    rw [h5.readI32_zero (n := cn.fa) (by omega), h5.readI32_local (k := 4 * cn.fa.toNat) (n := cn.noofa) (by omega)]
    rfl

/-- Faces to cells, from the section. -/
def cvofaOf (o : Order) (s : Sec) (fa cv : Int) : Py (List (Int × Int)) := do
  pyAssert (decide (s.h.int 0 = fa))
  pyAssert (decide (s.h.int 1 = 2))
  let l ← orRaise .type (← readI32 s.payload o 0 (fa * 2))
  match l.max? with
  | none => .error .value
  | some mx => do
      pyAssert (decide (mx < cv))
      pyAssert (decide (mx = cv - 1))
      return pairs l

theorem readCvofa_of {ver : Int} {cn : Counts} {l : List Sec} (hl : Going l) (h : Holds file o 8 l)
    (hz : ∀ s ∈ l, Sized ver cn s) (h0 : 0 ≤ cn.fa) :
    (readCvofa file o cn.fa cn.cv).map (·.1) = (req (first cCvofa l) >>= fun s => cvofaOf o s cn.fa cn.cv) ∧
      ∀ r p, readCvofa file o cn.fa cn.cv = .ok (r, p) → Holds file o p (after cCvofa l) := by
  unfold readCvofa
  rcases h.scanReq_first (code := cCvofa) (by decide) hl with ⟨h1, h2⟩ | ⟨s, q, c, h1, h2, h3, h4, h5, h6⟩
  · rw [h1, h2]; exact ⟨rfl, by intro _ _ h; cases h⟩
  · have z1 : (s.payload.length : Int) = 8 * cn.fa := hz s h2 _ (by unfold room; rw [h3]; rfl)
    rw [h1, h4]
    simp only [Except_bind_ok, req]
    rw [h5.readI32_zero (n := cn.fa * 2) (by omega), show 4 * (cn.fa * 2).toNat = s.payload.length by omega]
    constructor
    · show _ = cvofaOf o s cn.fa cn.cv
      unfold cvofaOf
      cases pyAssert (decide (s.h.int 0 = cn.fa)) with
      | error e => rfl
      | ok _ =>
        cases pyAssert (decide (s.h.int 1 = 2)) with
        | error e => rfl
        | ok _ =>
          cases Ic3.readI32 s.payload o 0 (cn.fa * 2) with
          | error e => rfl
          | ok r =>
            cases r with
            | none => rfl
            | some r =>
              simp only [Except_bind_ok, orRaise]
              cases r.max? with
              | none => rfl
              | some m =>
                simp only
                cases pyAssert (decide (m < cn.cv)) with
                | error e => rfl
                | ok _ => cases pyAssert (decide (m = cn.cv - 1)) <;> rfl
    · intro r p hr
      obtain ⟨_, _, hr⟩ := bind_eq_ok.1 hr
      obtain ⟨_, _, hr⟩ := bind_eq_ok.1 hr
      obtain ⟨_, _, hr⟩ := bind_eq_ok.1 hr
      obtain ⟨_, _, hr⟩ := bind_eq_ok.1 hr
      split at hr
      · cases hr
      · obtain ⟨_, _, hr⟩ := bind_eq_ok.1 hr
        obtain ⟨_, _, hr⟩ := bind_eq_ok.1 hr
        simp only [Except_pure, Except.ok.injEq, Prod.mk.injEq] at hr
        rw [← hr.2]
        exact h6

/-- Zones, from the sections. -/
def zonesRead (z : Csr) (l : List Sec) : Py (List Mark) := runLoop (fun st s => zoneStep z st s.h 0) (only [cFaZone] l) []

theorem readZones_of {ver : Int} {cn : Counts} {l : List Sec} {p : Nat} (z : Csr) (hl : Going l) (h : Holds file o p l)
    (hz : ∀ s ∈ l, Sized ver cn s) :
    sectionLoop file o [cFaZone] (zoneStep z) p [] = zonesRead z l := by
  refine sectionLoop_run (fun st s => zoneStep z st s.h 0) (by decide) hl (fun st s q c hs hid _ => ⟨rfl, ?_⟩) _ h
  intro st' k hk
  have h0 : (s.payload.length : Int) = 0 := by
    refine hz s hs 0 (room_zero (.inr (.inr ?_)))
    exact List.mem_singleton.1 hid
  unfold zoneStep at hk
  obtain ⟨_, _, hk⟩ := bind_eq_ok.1 hk
  obtain ⟨_, _, hk⟩ := bind_eq_ok.1 hk
  simp only [Except_pure, Except.ok.injEq, Prod.mk.injEq] at hk
  omega

/-- Partition, from the section. -/
def partOf (o : Order) (s : Sec) (cv : Int) : Py (Int × Icv) := do
  let l ← readI32 s.payload o 0 cv
  return (s.h.int 1, match l with | some l => .arr l | none => .null)

theorem readPart_of {ver : Int} {cn : Counts} {l : List Sec} (hl : Going l) (h : Holds file o 8 l)
    (hz : ∀ s ∈ l, Sized ver cn s) :
    readPart file o cn.cv = (req (first cCvPart l) >>= fun s => partOf o s cn.cv) := by
  unfold readPart
  rcases h.scanReq_first (code := cCvPart) (by decide) hl with ⟨h1, h2⟩ | ⟨s, q, c, h1, h2, h3, h4, h5, _⟩
  · rw [h1, h2]; rfl
  · have z1 : (s.payload.length : Int) = 4 * cn.cv := hz s h2 _ (by unfold room; rw [h3]; rfl)
    rw [h1, h4]
    simp only [Except_bind_ok, req]
    rw [h5.readI32_zero (n := cn.cv) (by omega)]
    rfl

/-- Coordinates, from the section. -/
def coordsOf (o : Order) (s : Sec) (no : Int) : Py (List (F64 × F64 × F64)) := do
  pyAssert (decide (s.h.int 0 = no))
  pyAssert (decide (s.h.int 1 = 3))
  let l ← orRaise .value (← readF64 s.payload o 0 (no * 3))
  return triples l

theorem readCoords_of {ver : Int} {cn : Counts} {l : List Sec} (hl : Going l) (h : Holds file o 8 l)
    (hz : ∀ s ∈ l, Sized ver cn s) :
    readCoords file o cn.no = (req (first cXno l) >>= fun s => coordsOf o s cn.no) := by
  unfold readCoords
  rcases h.scanReq_first (code := cXno) (by decide) hl with ⟨h1, h2⟩ | ⟨s, q, c, h1, h2, h3, h4, h5, _⟩
  · rw [h1, h2]; rfl
  · have z1 : (s.payload.length : Int) = 24 * cn.no := hz s h2 _ (by unfold room; rw [h3]; rfl)
    rw [h1, h4]
    simp only [Except_bind_ok, req]
    rw [h5.readF64_zero (n := cn.no * 3) (by omega)]
    rfl

/-- The mesh, from the sections. -/
def connOf (integ : Bool) (o : Order) (l : List Sec) : Py RMesh := do
  let s ← req (first cCounts l)
  let no := s.h.int 0
  let fa := s.h.int 1
  let cv := s.h.int 2
  let noofa := s.h.int 3
  if integ then integrityOf o l no fa cv else pure ()
  let csr ← req (first cNoofa l) >>= fun s => noofaOf o s fa noofa
  let cvofa ← req (first cCvofa l) >>= fun s => cvofaOf o s fa cv
  let bocos ← zonesRead csr (after cCvofa l)
  let (npart, icv) ← req (first cCvPart l) >>= fun s => partOf o s cv
  let coords ← req (first cXno l) >>= fun s => coordsOf o s no
  return ⟨no, fa, cv, noofa, csr, cvofa, bocos, npart, icv, coords⟩

theorem going_after {code : Int} {l : List Sec} : ∀ s ∈ after code l, s ∈ l := by
  intro s hs
  exact (List.dropWhile_suffix _).subset (List.mem_of_mem_tail hs)

theorem readConnectivity_of (integ : Bool) {ver : Int} {l : List Sec} (hs : Sections ver l) (h : Holds file o 8 l) :
    readConnectivity integ file o = connOf integ o l := by
  have hl : Going l := fun s hm => ⟨hs.wf s hm, hs.going s hm⟩
  have hz : ∀ s ∈ l, Sized ver (countsOf l) s := hs.sizes
  unfold readConnectivity connOf
  rcases h.scanReq_first (code := cCounts) (by decide) hl with ⟨h1, h2⟩ | ⟨s, q, c, h1, h2, h3, h4, h5, _⟩
  · rw [h1, h2]; rfl
  · have hc : countsOf l = ⟨s.h.int 0, s.h.int 1, s.h.int 2, s.h.int 3⟩ := by
      unfold countsOf
      rw [show first 10 l = some s from h1]
    rw [hc] at hz
    have hp := hs.counts
    rw [hc] at hp
    have i1 := integrity_of (cn := ⟨s.h.int 0, s.h.int 1, s.h.int 2, s.h.int 3⟩) hl h hz
    have i2 := readNoofa_of (cn := ⟨s.h.int 0, s.h.int 1, s.h.int 2, s.h.int 3⟩) hl h hz ⟨hp.2.1, hp.2.2.2⟩
    obtain ⟨i3, i4⟩ := readCvofa_of (cn := ⟨s.h.int 0, s.h.int 1, s.h.int 2, s.h.int 3⟩) hl h hz hp.2.1
    have i5 := readPart_of (cn := ⟨s.h.int 0, s.h.int 1, s.h.int 2, s.h.int 3⟩) hl h hz
    have i6 := readCoords_of (cn := ⟨s.h.int 0, s.h.int 1, s.h.int 2, s.h.int 3⟩) hl h hz
    simp only at i1 i2 i3 i4 i5 i6
    rw [h1, h4, show req (some s) = .ok s from rfl]
    have key : ∀ csr, (do
        let (cvofa, p) ← readCvofa file o (s.h.int 1) (s.h.int 2)
        let bocos ← sectionLoop file o [cFaZone] (zoneStep csr) p []
        let (npart, icv) ← readPart file o (s.h.int 2)
        let coords ← readCoords file o (s.h.int 0)
        return (⟨s.h.int 0, s.h.int 1, s.h.int 2, s.h.int 3, csr, cvofa, bocos, npart, icv, coords⟩ : RMesh)) = (do
        let cvofa ← req (first cCvofa l) >>= fun s' => cvofaOf o s' (s.h.int 1) (s.h.int 2)
        let bocos ← zonesRead csr (after cCvofa l)
        let (npart, icv) ← req (first cCvPart l) >>= fun s' => partOf o s' (s.h.int 2)
        let coords ← req (first cXno l) >>= fun s' => coordsOf o s' (s.h.int 0)
        return (⟨s.h.int 0, s.h.int 1, s.h.int 2, s.h.int 3, csr, cvofa, bocos, npart, icv, coords⟩ : RMesh)) := by
      intro csr
      rw [← i3]
      cases hr : readCvofa file o (s.h.int 1) (s.h.int 2) with
      | error e => rfl
      | ok r =>
        obtain ⟨r, p⟩ := r
        have i7 := readZones_of (cn := ⟨s.h.int 0, s.h.int 1, s.h.int 2, s.h.int 3⟩) csr
          (fun x hx => hl x (going_after x hx)) (i4 r p hr) (fun x hx => hz x (going_after x hx))
        simp only [Except_bind_ok, Except.map, i7, i5, i6]
    cases integ
    · simp only [Except_bind_ok, Bool.false_eq_true, if_false, i2]
      congr 1
      exact funext key
    · simp only [Except_bind_ok, if_true, i1, i2]
      congr 1
      funext _
      congr 1
      exact funext key

/-- Everything, from the sections. -/
def readOf (integ : Bool) (o : Order) (ver : Int) (l : List Sec) : Py FullMesh := do
  let mesh ← connOf integ o l
  let sim ← runLoop (fun st s => infoStep st s.h 0) (only [cI0, cD0] l)
    [("step", .int 0), ("dt", .int 0), ("time", .int 0), ("wgt", .wgts [])]
  let vars ← varsOf o ver mesh.no mesh.fa mesh.cv l
  exportMesh ⟨o, ver, mesh, sim, vars⟩

end Cfd.Ic3
