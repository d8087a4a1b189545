import Verif.Lemmas.Ic3ForeignContent

/-! The data that are read are those that the sections tell. -/

namespace Cfd.Ic3
open Spec Spec.Ic3 ElemConn

/-! ## Loops -/

/-- What a loop leaves: told by a section, or unchanged. -/
def Upd {α : Type} (P : Sec → α → Prop) (s : Option Sec) (x y : Option α) : Prop :=
  match s with
  | none => y = x
  | some s => ∃ a, y = some a ∧ P s a

theorem Upd.trans {α : Type} {P : Sec → α → Prop} {s t : Option Sec} {x y z : Option α} (h1 : Upd P s x y)
    (h2 : Upd P t y z) : Upd P (t.or s) x z := by
  cases t with
  | some t => exact h2
  | none =>
    have : z = y := h2
    rw [this]; exact h1

theorem runLoop_upd {σ α : Type} {g : σ → Sec → Py (σ × Nat × Bool)} {get : σ → Option α} {sel : Sec → Bool}
    {P : Sec → α → Prop} {l : List Sec}
    (hstep : ∀ s ∈ l, ∀ st st' k b, g st s = .ok (st', k, b) →
      b = true ∧ Upd P (if sel s then some s else none) (get st) (get st')) {st st' : σ} (h : runLoop g l st = .ok st') :
    Upd P (l.reverse.find? sel) (get st) (get st') := by
  induction l generalizing st with
  | nil =>
    simp only [runLoop, Except.ok.injEq] at h
    rw [h]; rfl
  | cons s t ih =>
    unfold runLoop at h
    cases hg : g st s with
    | error e => rw [hg] at h; cases h
    | ok r =>
      obtain ⟨st1, k, b⟩ := r
      obtain ⟨rfl, h1⟩ := hstep s (by simp) st st1 k b hg
      rw [hg] at h
      have h2 := ih (fun s hs => hstep s (by simp [hs])) h
      have := h1.trans h2
      rw [List.reverse_cons, List.find?_append]
      convert this using 2
      simp only [List.find?_cons, List.find?_nil]
      cases sel s <;> rfl

/-- A loop keeps what its steps keep. -/
theorem runLoop_inv {σ : Type} {g : σ → Sec → Py (σ × Nat × Bool)} {I : σ → Prop} {l : List Sec}
    (hstep : ∀ s ∈ l, ∀ st st' k b, I st → g st s = .ok (st', k, b) → I st') {st st' : σ} (h0 : I st)
    (h : runLoop g l st = .ok st') : I st' := by
  induction l generalizing st with
  | nil =>
    simp only [runLoop, Except.ok.injEq] at h
    rwa [← h]
  | cons s t ih =>
    unfold runLoop at h
    cases hg : g st s with
    | error e => rw [hg] at h; cases h
    | ok r =>
      obtain ⟨st1, k, b⟩ := r
      have h1 := hstep s (by simp) st st1 k b h0 hg
      rw [hg] at h
      cases b with
      | true => exact ih (fun s hs => hstep s (by simp [hs])) h1 h
      | false =>
        simp only [Except.ok.injEq] at h
        rwa [← h]

theorem Upd.same {α : Type} {P : Sec → α → Prop} {x y : Option α} (h : y = x) : Upd P none x y := h

/-! ## Values -/

theorem take_payload {s : Sec} {n : Nat} (h : s.payload.length ≤ n) : (s.payload.drop 0).take n = s.payload := by
  rw [List.drop_zero, List.take_of_length_le h]

theorem readScalar_inv {o : Order} {s : Sec} {n : Int} {a : NpArr} (h : readScalar s.payload o s.h.id 0 n = .ok a)
    (hid : s.h.id ∈ [(32 : Int), 34, 24, 42, 45]) (hs : (s.payload.length : Int) = 8 * n) : ArrayOf o s n a := by
  have hcs : componentShape s = [] := by
    simp only [List.mem_cons, List.not_mem_nil, or_false] at hid
    unfold componentShape
    rcases hid with e | e | e | e | e <;> rw [e] <;> rfl
  have hids : (s.h.id = cNoII1 ∨ s.h.id = cCvII1) ↔ s.h.id ∈ [(34 : Int), 45] := by
    simp [cNoII1, cCvII1]
  unfold readScalar at h
  split at h
  · next hi =>
    obtain ⟨r, hr, h⟩ := bind_eq_ok.1 h
    obtain ⟨l, hl, h⟩ := bind_eq_ok.1 h
    rw [orRaise_ok hl] at hr
    simp only [Except_pure, Except.ok.injEq] at h
    subst h
    obtain ⟨h1, h2, h3⟩ := readI64_bytes hr
    rw [take_payload (by omega)] at h1
    exact ⟨by rw [hcs, h2], .inl ⟨hids.1 hi, l, rfl, h1.symm, h3⟩⟩
  · next hi =>
    obtain ⟨r, hr, h⟩ := bind_eq_ok.1 h
    cases r with
    | none =>
      have h1 := (readF64_count hr).2.2 rfl
      omega
    | some l =>
      simp only [Except_pure, Except.ok.injEq] at h
      subst h
      obtain ⟨h1, h2⟩ := readF64_bytes hr
      rw [take_payload (by omega)] at h1
      exact ⟨by rw [hcs, h2], .inr ⟨fun hm => hi (hids.2 hm), l, rfl, h1.symm⟩⟩

theorem readRows_inv {o : Order} {s : Sec} {n : Int} {tail : List Nat} {a : NpArr} (h : readRows s.payload o 0 n tail = .ok a)
    (ht : componentShape s = tail) (hid : s.h.id ∉ [(34 : Int), 45])
    (hs : (s.payload.length : Int) = 8 * (n * (tail.prod : Nat))) : ArrayOf o s n a := by
  unfold readRows at h
  obtain ⟨r, hr, h⟩ := bind_eq_ok.1 h
  obtain ⟨l, hl, h⟩ := bind_eq_ok.1 h
  rw [orRaise_ok hl] at hr
  simp only [Except_pure, Except.ok.injEq] at h
  subst h
  obtain ⟨h1, h2⟩ := readF64_bytes hr
  rw [take_payload (by omega)] at h1
  exact ⟨by rw [ht], .inr ⟨hid, l, rfl, h1.symm⟩⟩

/-! ## Steps -/

/-- A dictionary after storing under one name. -/
theorem upd_set {P : Sec → NpArr → Prop} {s : Sec} {a : NpArr} (d : Dict String NpArr) (name : String) (h : P s a) :
    Upd P (if s.h.name = name then some s else none) (d.get? name) ((d.set s.h.name a).get? name) := by
  by_cases e : s.h.name = name
  · rw [if_pos e, e]; exact ⟨a, Dict.get?_set_self d name a, h⟩
  · rw [if_neg e]
    exact Dict.get?_set_ne d a (fun h => e h.symm)

/-- The attributes after the announcement of a number of degrees of freedom. -/
def attrsAfter (a : DataAttrs) (n : Int) : DataAttrs := if 1 < n then { a with xrep := "spectralcell", ndof := n } else a

theorem setNdof_after {a b : DataAttrs} {n : Int} (h : setNdofAttrs a n = .ok b) : b = attrsAfter a n := by
  unfold setNdofAttrs at h
  unfold attrsAfter
  split at h
  · next hn =>
    rw [if_pos hn]
    obtain ⟨c, hc, h⟩ := bind_eq_ok.1 h
    unfold DataAttrs.setXrep at hc
    obtain ⟨_, _, hc⟩ := bind_eq_ok.1 hc
    unfold DataAttrs.setNdof at h
    obtain ⟨_, _, h⟩ := bind_eq_ok.1 h
    simp only [Except_pure, Except.ok.injEq] at h hc
    rw [← h, ← hc]
  · next hn =>
    rw [if_neg hn]
    simp only [Except.ok.injEq] at h
    exact h.symm

/-- What a step of the loops leaves. -/
structure StepOK (o : Order) (ver : Int) (c : Counts) (s : Sec) (node : Bool) (cell : Bool) (st st' : RVars) : Prop where
  nodes : ∀ name, Upd (fun s a => ArrayOf o s c.no a) (if node && decide (s.h.name = name) then some s else none)
    (st.nodes.get? name) (st'.nodes.get? name)
  cells : ∀ name, Upd (fun s a => ArrayOf o s (dofs ver s.h * c.cv) a) (if cell && decide (s.h.name = name) then some s else none)
    (st.cells.get? name) (st'.cells.get? name)
  attrs : st'.attrs = if cell then attrsAfter st.attrs (dofs ver s.h) else st.attrs

theorem onCells_of {c : Counts} {s : Sec} (h1 : ¬ s.h.int 0 = c.no) (h2 : ¬ s.h.int 0 = c.fa) (h3 : s.h.int 0 = c.cv) :
    onCells c s = true := by
  unfold onCells
  rw [decide_eq_true (p := s.h.int 0 ≠ c.no) h1, decide_eq_true (p := s.h.int 0 ≠ c.fa) h2, decide_eq_true h3]; rfl

theorem scalarStep_ok {o : Order} {ver : Int} {c : Counts} {s : Sec} {st st' : RVars} {k : Nat} {b : Bool}
    (hid : s.h.id ∈ [(32 : Int), 34, 24, 42, 45]) (hz : Sized ver c s)
    (h : scalarStep s.payload o ver c.no c.fa c.cv st s.h 0 = .ok (st', k, b)) :
    b = true ∧ StepOK o ver c s (decide (s.h.int 0 = c.no)) (onCells c s) st st' := by
  have hr : room ver c s.h = (if s.h.int 0 = c.no then some (8 * c.no) else if s.h.int 0 = c.fa then some (8 * c.fa)
      else if s.h.int 0 = c.cv then some (8 * (dofs ver s.h * c.cv)) else none) := by
    simp only [List.mem_cons, List.not_mem_nil, or_false] at hid
    unfold room
    rcases hid with e | e | e | e | e <;> rw [e] <;> rfl
  unfold Sized at hz
  rw [hr] at hz
  unfold scalarStep at h
  by_cases h1 : s.h.int 0 = c.no
  · rw [if_pos h1] at hz h
    obtain ⟨a, ha, h⟩ := bind_eq_ok.1 h
    obtain ⟨_, _, h⟩ := bind_eq_ok.1 h
    simp only [Except_pure, Except.ok.injEq, Prod.mk.injEq] at h
    obtain ⟨rfl, _, rfl⟩ := h
    have hA := readScalar_inv ha hid (hz _ rfl)
    have bc : onCells c s = false := by simp [onCells, h1]
    rw [bc, decide_eq_true h1]
    refine ⟨rfl, fun name => ?_, fun name => rfl, rfl⟩
    simpa using upd_set (P := fun s a => ArrayOf o s c.no a) st.nodes name hA
  · rw [if_neg h1] at hz h
    by_cases h2 : s.h.int 0 = c.fa
    · rw [if_pos h2] at hz h
      obtain ⟨a, ha, h⟩ := bind_eq_ok.1 h
      obtain ⟨_, _, h⟩ := bind_eq_ok.1 h
      simp only [Except_pure, Except.ok.injEq, Prod.mk.injEq] at h
      obtain ⟨rfl, _, rfl⟩ := h
      have bc : onCells c s = false := by simp [onCells, h2]
      rw [bc, decide_eq_false h1]
      exact ⟨rfl, fun name => rfl, fun name => rfl, rfl⟩
    · rw [if_neg h2] at hz h
      by_cases h3 : s.h.int 0 = c.cv
      · rw [if_pos h3] at hz h
        obtain ⟨n, hn, h⟩ := bind_eq_ok.1 h
        obtain ⟨at', hat, h⟩ := bind_eq_ok.1 h
        obtain ⟨a, ha, h⟩ := bind_eq_ok.1 h
        obtain ⟨_, _, h⟩ := bind_eq_ok.1 h
        simp only [Except_pure, Except.ok.injEq, Prod.mk.injEq] at h
        obtain ⟨rfl, _, rfl⟩ := h
        have e := ndofOf_dofs hn
        subst e
        have hA := readScalar_inv ha hid (hz _ rfl)
        rw [onCells_of h1 h2 h3, decide_eq_false h1]
        refine ⟨rfl, fun name => rfl, fun name => ?_, setNdof_after hat⟩
        have := upd_set (P := fun s a => ArrayOf o s (dofs ver s.h * c.cv) a) st.cells name hA
        simpa using this
      · rw [if_neg h3] at h
        cases h

theorem vectorStep_ok {o : Order} {ver : Int} {c : Counts} {s : Sec} {st st' : RVars} {k : Nat} {b : Bool}
    (hid : s.h.id ∈ [(33 : Int), 25, 43]) (hz : Sized ver c s)
    (h : vectorStep s.payload o ver c.no c.fa c.cv st s.h 0 = .ok (st', k, b)) :
    b = true ∧ StepOK o ver c s false (onCells c s) st st' := by
  have hr : room ver c s.h = (if s.h.int 0 = c.no then some (24 * c.no) else if s.h.int 0 = c.fa then some (24 * c.fa)
      else if s.h.int 0 = c.cv then some (24 * (dofs ver s.h * c.cv)) else none) := by
    simp only [List.mem_cons, List.not_mem_nil, or_false] at hid
    unfold room
    rcases hid with e | e | e <;> rw [e] <;> rfl
  have hcs : componentShape s = [3] ∧ s.h.id ∉ [(34 : Int), 45] := by
    simp only [List.mem_cons, List.not_mem_nil, or_false] at hid
    unfold componentShape
    rcases hid with e | e | e <;> rw [e] <;> exact ⟨rfl, by decide⟩
  unfold Sized at hz
  rw [hr] at hz
  unfold vectorStep at h
  by_cases h1 : s.h.int 0 = c.no
  · rw [if_pos h1] at hz h
    obtain ⟨a, ha, h⟩ := bind_eq_ok.1 h
    obtain ⟨_, _, h⟩ := bind_eq_ok.1 h
    simp only [Except_pure, Except.ok.injEq, Prod.mk.injEq] at h
    obtain ⟨rfl, _, rfl⟩ := h
    have bc : onCells c s = false := by simp [onCells, h1]
    rw [bc]
    exact ⟨rfl, fun name => rfl, fun name => rfl, rfl⟩
  · rw [if_neg h1] at hz h
    by_cases h2 : s.h.int 0 = c.fa
    · rw [if_pos h2] at hz h
      obtain ⟨a, ha, h⟩ := bind_eq_ok.1 h
      obtain ⟨_, _, h⟩ := bind_eq_ok.1 h
      simp only [Except_pure, Except.ok.injEq, Prod.mk.injEq] at h
      obtain ⟨rfl, _, rfl⟩ := h
      have bc : onCells c s = false := by simp [onCells, h2]
      rw [bc]
      exact ⟨rfl, fun name => rfl, fun name => rfl, rfl⟩
    · rw [if_neg h2] at hz h
      by_cases h3 : s.h.int 0 = c.cv
      · rw [if_pos h3] at hz h
        obtain ⟨n, hn, h⟩ := bind_eq_ok.1 h
        obtain ⟨at', hat, h⟩ := bind_eq_ok.1 h
        obtain ⟨a, ha, h⟩ := bind_eq_ok.1 h
        obtain ⟨_, _, h⟩ := bind_eq_ok.1 h
        simp only [Except_pure, Except.ok.injEq, Prod.mk.injEq] at h
        obtain ⟨rfl, _, rfl⟩ := h
        have e := ndofOf_dofs hn
        subst e
        have hl := hz _ rfl
        have hA := readRows_inv ha hcs.1 hcs.2 (by rw [show (([3] : List Nat).prod : Int) = 3 by decide]; omega)
        rw [onCells_of h1 h2 h3]
        refine ⟨rfl, fun name => rfl, fun name => ?_, setNdof_after hat⟩
        have := upd_set (P := fun s a => ArrayOf o s (dofs ver s.h * c.cv) a) st.cells name hA
        simpa using this
      · rw [if_neg h3] at h
        cases h

theorem tensorStep_ok {o : Order} {ver : Int} {c : Counts} {s : Sec} {st st' : RVars} {k : Nat} {b : Bool}
    (hid : s.h.id ∈ [(44 : Int)]) (hz : Sized ver c s)
    (h : tensorStep s.payload o ver c.cv st s.h 0 = .ok (st', k, b)) :
    b = true ∧ StepOK o ver c s false true st st' := by
  have hid := List.mem_singleton.1 hid
  have hr : room ver c s.h = (if s.h.int 0 = c.cv then some (72 * (dofs ver s.h * c.cv)) else none) := by
    unfold room
    rw [hid]; rfl
  have hcs : componentShape s = [3, 3] ∧ s.h.id ∉ [(34 : Int), 45] := by
    unfold componentShape
    rw [hid]; exact ⟨rfl, by decide⟩
  unfold Sized at hz
  rw [hr] at hz
  unfold tensorStep at h
  by_cases h3 : s.h.int 0 = c.cv
  · rw [if_pos h3] at hz h
    obtain ⟨n, hn, h⟩ := bind_eq_ok.1 h
    obtain ⟨at', hat, h⟩ := bind_eq_ok.1 h
    obtain ⟨a, ha, h⟩ := bind_eq_ok.1 h
    obtain ⟨_, _, h⟩ := bind_eq_ok.1 h
    simp only [Except_pure, Except.ok.injEq, Prod.mk.injEq] at h
    obtain ⟨rfl, _, rfl⟩ := h
    have e := ndofOf_dofs hn
    subst e
    have hl := hz _ rfl
    have hA := readRows_inv ha hcs.1 hcs.2 (by rw [show (([3, 3] : List Nat).prod : Int) = 9 by decide]; omega)
    refine ⟨rfl, fun name => rfl, fun name => ?_, setNdof_after hat⟩
    have := upd_set (P := fun s a => ArrayOf o s (dofs ver s.h * c.cv) a) st.cells name hA
    simpa using this
  · rw [if_neg h3] at h
    cases h

/-! ## The whole -/

/-- The attributes after a list of sections. -/
def attrsFold (ver : Int) (l : List Sec) (a : DataAttrs) : DataAttrs := l.foldl (fun a s => attrsAfter a (dofs ver s.h)) a

theorem runLoop_attrs {g : RVars → Sec → Py (RVars × Nat × Bool)} {ver : Int} {sel : Sec → Bool} {l : List Sec}
    (hstep : ∀ s ∈ l, ∀ st st' k b, g st s = .ok (st', k, b) →
      b = true ∧ st'.attrs = if sel s then attrsAfter st.attrs (dofs ver s.h) else st.attrs) {st st' : RVars}
    (h : runLoop g l st = .ok st') : st'.attrs = attrsFold ver (l.filter sel) st.attrs := by
  induction l generalizing st with
  | nil =>
    simp only [runLoop, Except.ok.injEq] at h
    rw [h]; rfl
  | cons s t ih =>
    unfold runLoop at h
    cases hg : g st s with
    | error e => rw [hg] at h; cases h
    | ok r =>
      obtain ⟨st1, k, b⟩ := r
      obtain ⟨rfl, h1⟩ := hstep s (by simp) st st1 k b hg
      rw [hg] at h
      rw [ih (fun s hs => hstep s (by simp [hs])) h, h1]
      cases e : sel s <;> simp [e, attrsFold]

theorem attrsFold_eq (ver : Int) (l : List Sec) (a : DataAttrs) :
    attrsFold ver l a = match (l.filter fun s => decide (1 < dofs ver s.h)).getLast? with
      | none => a
      | some s => { a with xrep := "spectralcell", ndof := dofs ver s.h } := by
  induction l generalizing a with
  | nil => rfl
  | cons s t ih =>
    rw [show attrsFold ver (s :: t) a = attrsFold ver t (attrsAfter a (dofs ver s.h)) from rfl, ih]
    by_cases hs : 1 < dofs ver s.h
    · rw [List.filter_cons_of_pos (by simpa using hs), List.getLast?_cons]
      unfold attrsAfter
      rw [if_pos hs]
      cases (t.filter fun s => decide (1 < dofs ver s.h)).getLast? <;> rfl
    · rw [List.filter_cons_of_neg (by simpa using hs)]
      unfold attrsAfter
      rw [if_neg hs]

theorem lastNamed_filter (p : Sec → Bool) (name : String) (l : List Sec) :
    lastNamed name (l.filter p) = l.reverse.find? (fun s => p s && decide (s.h.name = name)) := by
  unfold lastNamed
  rw [← List.filter_reverse, List.find?_filter]
  refine congrArg (fun p => List.find? p l.reverse) (funext fun s => ?_)
  cases p s <;> simp

theorem lastNamed_append (name : String) (l l' : List Sec) :
    lastNamed name (l ++ l') = (lastNamed name l').or (lastNamed name l) := by
  unfold lastNamed
  rw [List.reverse_append, List.find?_append]

theorem told_upd {α : Type} {P : Sec → α → Prop} {s : Option Sec} {x : Option α} (h : Upd P s none x) : Told P s x := h

theorem varsOf_tells {o : Order} {ver : Int} {l : List Sec} {st : RVars} (hz : ∀ s ∈ l, Sized ver (countsOf l) s)
    (h : varsOf o ver (countsOf l).no (countsOf l).fa (countsOf l).cv l = .ok st) :
    (∀ name, Told (fun s a => ArrayOf o s (countsOf l).no a) (lastNamed name (nodeData l)) (st.nodes.get? name)) ∧
    (∀ name, Told (fun s a => ArrayOf o s (dofs ver s.h * (countsOf l).cv) a) (lastNamed name (cellData l))
      (st.cells.get? name)) ∧
    st.attrs = ⟨.dataSet, if 1 < announced ver l then "spectralcell" else "cellaverage", announced ver l, "instant"⟩ := by
  unfold varsOf at h
  obtain ⟨s1, h1, h⟩ := bind_eq_ok.1 h
  obtain ⟨s2, h2, h⟩ := bind_eq_ok.1 h
  have mem : ∀ {K : List Int} {s : Sec}, s ∈ only K l → s ∈ l ∧ s.h.id ∈ K := by
    intro K s hs
    obtain ⟨a, b⟩ := List.mem_filter.1 hs
    exact ⟨a, of_decide_eq_true b⟩
  have k1 := fun s (hs : s ∈ only [cNoD1, cNoII1, cFaD1, cCvD1, cCvII1] l) st st' k b hg =>
    scalarStep_ok (o := o) (st := st) (st' := st') (k := k) (b := b) (mem hs).2 (hz s (mem hs).1) hg
  have k2 := fun s (hs : s ∈ only [cNoD3, cFaD3, cCvD3] l) st st' k b hg =>
    vectorStep_ok (o := o) (st := st) (st' := st') (k := k) (b := b) (mem hs).2 (hz s (mem hs).1) hg
  have k3 := fun s (hs : s ∈ only [cCvD33] l) st st' k b hg =>
    tensorStep_ok (o := o) (st := st) (st' := st') (k := k) (b := b) (mem hs).2 (hz s (mem hs).1) hg
  have find_false : ∀ (m : List Sec) (p : Sec → Bool), m.find? (fun s => false && p s) = none := by
    intro m p; simp
  refine ⟨fun name => ?_, fun name => ?_, ?_⟩
  · have u1 := runLoop_upd (get := fun st : RVars => st.nodes.get? name)
      (fun s hs st st' k b hg => ⟨(k1 s hs st st' k b hg).1, (k1 s hs st st' k b hg).2.nodes name⟩) h1
    have u2 := runLoop_upd (get := fun st : RVars => st.nodes.get? name)
      (fun s hs st st' k b hg => ⟨(k2 s hs st st' k b hg).1, (k2 s hs st st' k b hg).2.nodes name⟩) h2
    have u3 := runLoop_upd (get := fun st : RVars => st.nodes.get? name)
      (fun s hs st st' k b hg => ⟨(k3 s hs st st' k b hg).1, (k3 s hs st st' k b hg).2.nodes name⟩) h
    have := (u1.trans u2).trans u3
    rw [find_false, find_false, Option.none_or, Option.none_or] at this
    refine told_upd ?_
    rw [nodeData, lastNamed_filter]
    exact this
  · have u1 := runLoop_upd (get := fun st : RVars => st.cells.get? name)
      (fun s hs st st' k b hg => ⟨(k1 s hs st st' k b hg).1, (k1 s hs st st' k b hg).2.cells name⟩) h1
    have u2 := runLoop_upd (get := fun st : RVars => st.cells.get? name)
      (fun s hs st st' k b hg => ⟨(k2 s hs st st' k b hg).1, (k2 s hs st st' k b hg).2.cells name⟩) h2
    have u3 := runLoop_upd (get := fun st : RVars => st.cells.get? name)
      (fun s hs st st' k b hg => ⟨(k3 s hs st st' k b hg).1, (k3 s hs st st' k b hg).2.cells name⟩) h
    have := (u1.trans u2).trans u3
    refine told_upd ?_
    rw [cellData, lastNamed_append, lastNamed_append, lastNamed_filter, lastNamed_filter, Option.or_assoc]
    simp only [Bool.true_and] at this
    exact this
  · have a1 := runLoop_attrs (fun s hs st st' k b hg => ⟨(k1 s hs st st' k b hg).1, (k1 s hs st st' k b hg).2.attrs⟩) h1
    have a2 := runLoop_attrs (fun s hs st st' k b hg => ⟨(k2 s hs st st' k b hg).1, (k2 s hs st st' k b hg).2.attrs⟩) h2
    have a3 := runLoop_attrs (sel := fun _ => true)
      (fun s hs st st' k b hg => ⟨(k3 s hs st st' k b hg).1, (k3 s hs st st' k b hg).2.attrs⟩) h
    have e : st.attrs = attrsFold ver (cellData l) vars0.attrs := by
      rw [a3, a2, a1]
      unfold cellData attrsFold
      rw [List.foldl_append, List.foldl_append, List.filter_true]
      rfl
    rw [e, attrsFold_eq]
    unfold announced
    cases hl : ((cellData l).filter fun s => decide (1 < dofs ver s.h)).getLast? with
    | none => rfl
    | some s =>
      have hs := (List.mem_filter.1 (List.mem_of_getLast? hl)).2
      simp only [decide_eq_true_eq] at hs
      simp [hs, vars0]

/-! ## Parameters and zones -/

theorem info_tells {l : List Sec} {sim : Dict String SimVal}
    (h : runLoop (fun st s => infoStep st s.h 0) (only [cI0, cD0] l)
      [("step", .int 0), ("dt", .int 0), ("time", .int 0), ("wgt", .wgts [])] = .ok sim) :
    sim.keys.Nodup ∧ ∀ key, sim.get? key = ((lastParam key l).map paramValue).or
      (Dict.get? [("step", .int 0), ("dt", .int 0), ("time", .int 0), ("wgt", .wgts [])] key) := by
  have step : ∀ (st : Dict String SimVal) (s : Sec), infoStep st s.h 0 = .ok (st.set s.h.name.toLower (paramValue s), 0, true) := by
    intro st s
    unfold infoStep paramValue
    rw [show cI0 = 11 from rfl]
    split <;> rfl
  refine ⟨runLoop_inv (I := fun d : Dict String SimVal => d.keys.Nodup) ?_ (by decide) h, fun key => ?_⟩
  · intro s _ st st' k b hi hg
    rw [step] at hg
    simp only [Except.ok.injEq, Prod.mk.injEq] at hg
    rw [← hg.1]
    exact Dict.nodup_keys_set hi _ _
  · have u := runLoop_upd (get := fun d : Dict String SimVal => d.get? key) (P := fun s a => a = paramValue s)
      (sel := fun s => decide (s.h.name.toLower = key)) (fun s hs st st' k b hg => by
        rw [step] at hg
        simp only [Except.ok.injEq, Prod.mk.injEq] at hg
        obtain ⟨rfl, _, rfl⟩ := hg
        refine ⟨rfl, ?_⟩
        by_cases e : s.h.name.toLower = key
        · rw [if_pos (by simpa using e), e]; exact ⟨_, Dict.get?_set_self st key _, rfl⟩
        · rw [if_neg (by simpa using e)]
          exact Dict.get?_set_ne st _ (fun h => e h.symm)) h
    rw [show only [cI0, cD0] l = only [11, 12] l from rfl] at u
    unfold lastParam
    cases hf : (only [11, 12] l).reverse.find? (fun s => decide (s.h.name.toLower = key)) with
    | none => rw [hf] at u; exact u
    | some s =>
      rw [hf] at u
      obtain ⟨a, h1, h2⟩ := u
      rw [h1, h2]; rfl

theorem zoneStep_mark {z : Csr} {st st' : List Mark} {s : Sec} {k : Nat} {b : Bool}
    (h : zoneStep z st s.h 0 = .ok (st', k, b)) :
    st' = st ++ [markOf s] ∧ b = decide (s.h.int 0 ≠ 6) ∧ (zoneType (s.h.int 0)).isSome = true ∧
      ∃ x, npGet z.index (s.h.int 1) = .ok x := by
  unfold zoneStep at h
  obtain ⟨t, ht, h⟩ := bind_eq_ok.1 h
  obtain ⟨x, hx, h⟩ := bind_eq_ok.1 h
  simp only [Except_pure, Except.ok.injEq, Prod.mk.injEq] at h
  have key : zoneType (s.h.int 0) = some t ∧ (t = "internal" ↔ s.h.int 0 = 6) := by
    unfold Dict.getE at ht
    revert ht
    generalize s.h.int 0 = i
    intro ht
    simp only [zonekind2type, type2zonekind, List.map_cons, List.map_nil, Dict.get?] at ht
    by_cases e1 : i = 1
    · subst e1; simp at ht; subst ht; exact ⟨rfl, by decide⟩
    by_cases e2 : i = 2
    · subst e2; simp at ht; subst ht; exact ⟨rfl, by decide⟩
    by_cases e3 : i = 3
    · subst e3; simp at ht; subst ht; exact ⟨rfl, by decide⟩
    by_cases e4 : i = 4
    · subst e4; simp at ht; subst ht; exact ⟨rfl, by decide⟩
    by_cases e5 : i = 5
    · subst e5; simp at ht; subst ht; exact ⟨rfl, by decide⟩
    by_cases e6 : i = 6
    · subst e6; simp at ht; subst ht; exact ⟨rfl, by decide⟩
    · exfalso
      simp [Ne.symm e1, Ne.symm e2, Ne.symm e3, Ne.symm e4, Ne.symm e5, Ne.symm e6] at ht
  refine ⟨?_, h.2.2.symm, by rw [key.1]; rfl, x, hx⟩
  rw [← h.1]
  congr 1
  unfold markOf
  rw [key.1]
  by_cases e : s.h.int 0 = 6
  · simp [e, key.2.2 e]
  · have ne : ¬ t = "internal" := fun h => e (key.2.1 h)
    simp [e, ne]

theorem zones_tell {z : Csr} {l : List Sec} {st bocos : List Mark}
    (h : runLoop (fun st s => zoneStep z st s.h 0) l st = .ok bocos) :
    bocos = st ++ (upTo6 l).map markOf ∧
      ∀ s ∈ upTo6 l, (zoneType (s.h.int 0)).isSome = true ∧ ∃ x, npGet z.index (s.h.int 1) = .ok x := by
  induction l generalizing st with
  | nil =>
    simp only [runLoop, Except.ok.injEq] at h
    simp [upTo6, h]
  | cons s t ih =>
    unfold runLoop at h
    cases hg : zoneStep z st s.h 0 with
    | error e => simp only [hg] at h; cases h
    | ok r =>
      obtain ⟨st1, k, b⟩ := r
      obtain ⟨rfl, rfl, h3, h4⟩ := zoneStep_mark hg
      simp only [hg] at h
      unfold upTo6
      by_cases e : s.h.int 0 = 6
      · rw [if_pos e]
        simp only [e, ne_eq, not_true_eq_false, decide_false, Except.ok.injEq] at h
        refine ⟨by rw [← h]; rfl, ?_⟩
        intro s' hs'
        rw [List.mem_singleton.1 hs']
        exact ⟨h3, h4⟩
      · rw [if_neg e]
        simp only [e, ne_eq, not_false_eq_true, decide_true] at h
        obtain ⟨i1, i2⟩ := ih h
        refine ⟨by rw [i1]; simp, ?_⟩
        intro s' hs'
        rcases List.mem_cons.1 hs' with rfl | hs'
        · exact ⟨h3, h4⟩
        · exact i2 s' hs'

theorem foldl_zoneMarks (l : List Sec) (d : Dict String Mark) (name : String) :
    ((l.map markOf).foldl (fun d b => d.set b.name b) d).get? name = ((lastNamed name l).map markOf).or (d.get? name) := by
  induction l generalizing d with
  | nil => rfl
  | cons s t ih =>
    rw [List.map_cons, List.foldl_cons, ih, show s :: t = [s] ++ t from rfl, lastNamed_append]
    cases lastNamed name t with
    | some x => rfl
    | none =>
      simp only [Option.map_none, Option.none_or]
      unfold lastNamed
      simp only [List.reverse_cons, List.reverse_nil, List.nil_append, List.find?_cons, List.find?_nil]
      rw [show (markOf s).name = s.h.name from rfl]
      by_cases e : s.h.name = name
      · simp [e, Dict.get?_set_self]
      · simp only [e, decide_false, Option.map_none, Option.none_or]
        exact Dict.get?_set_ne d _ (fun h => e h.symm)

end Cfd.Ic3
