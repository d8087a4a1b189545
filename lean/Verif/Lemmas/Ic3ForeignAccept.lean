import Verif.Lemmas.Ic3ForeignTells

/-! The files made of sections that are accepted. -/

namespace Cfd.Ic3
open Spec Spec.Ic3 ElemConn

/-! ## Loops -/

theorem runLoop_can {σ : Type} {g : σ → Sec → Py (σ × Nat × Bool)} {I : σ → Prop} {l : List Sec}
    (hstep : ∀ s ∈ l, ∀ st, I st → ∃ st' k b, g st s = .ok (st', k, b) ∧ I st') {st : σ} (h0 : I st) :
    ∃ st', runLoop g l st = .ok st' ∧ I st' := by
  induction l generalizing st with
  | nil => exact ⟨st, rfl, h0⟩
  | cons s t ih =>
    obtain ⟨st1, k, b, hg, h1⟩ := hstep s (by simp) st h0
    unfold runLoop
    rw [hg]
    cases b with
    | true => exact ih (fun s hs => hstep s (by simp [hs])) h1
    | false => exact ⟨st1, rfl, h1⟩

theorem runLoop_each {σ : Type} {g : σ → Sec → Py (σ × Nat × Bool)} {l : List Sec}
    (hstep : ∀ s ∈ l, ∀ st st' k b, g st s = .ok (st', k, b) → b = true) {st st' : σ} (h : runLoop g l st = .ok st') :
    ∀ s ∈ l, ∃ st st' k, g st s = .ok (st', k, true) := by
  induction l generalizing st with
  | nil => simp
  | cons s t ih =>
    unfold runLoop at h
    cases hg : g st s with
    | error e => rw [hg] at h; cases h
    | ok r =>
      obtain ⟨st1, k, b⟩ := r
      have hb := hstep s (by simp) st st1 k b hg
      subst hb
      rw [hg] at h
      intro x hx
      rcases List.mem_cons.1 hx with rfl | hx
      · exact ⟨st, st1, k, hg⟩
      · exact ih (fun s hs => hstep s (by simp [hs])) h x hx

/-! ## Values -/

theorem readAt_whole {b : Bytes} {n : Nat} (h : n = b.length) : readAt b 0 n = some b := by
  have := (At.self b).readAt h
  exact this

theorem readI32_whole {b : Bytes} {o : Order} {n : Int} (h0 : 0 ≤ n) (h : (b.length : Int) = 4 * n) :
    readI32 b o 0 n = .ok (some (unpackInts o 4 n.toNat b)) := by
  unfold readI32 formatCount
  rw [if_neg (by omega), Except_bind_ok, readAt_whole (by omega)]
  rfl

theorem readI64_whole {b : Bytes} {o : Order} {n : Int} (h0 : 0 ≤ n) (h : (b.length : Int) = 8 * n) :
    readI64 b o 0 n = .ok (some (unpackInts o 8 n.toNat b)) := by
  unfold readI64 formatCount
  rw [if_neg (by omega), Except_bind_ok, readAt_whole (by omega)]
  rfl

theorem readF64_whole {b : Bytes} {o : Order} {n : Int} (h0 : 0 ≤ n) (h : (b.length : Int) = 8 * n) :
    readF64 b o 0 n = .ok (some (unpackF64s o n.toNat b)) := by
  unfold readF64 formatCount
  rw [if_neg (by omega), Except_bind_ok, readAt_whole (by omega)]
  rfl

theorem length_unpackInts (o : Order) (k n : Nat) (b : Bytes) : (unpackInts o k n b).length = n := by
  unfold unpackInts; rw [List.length_map, groups_count]

theorem length_unpackF64s (o : Order) (n : Nat) (b : Bytes) : (unpackF64s o n b).length = n := by
  unfold unpackF64s; rw [List.length_map, groups_count]

theorem readScalar_can {o : Order} {s : Sec} {id n : Int} (h0 : 0 < n) (h : (s.payload.length : Int) = 8 * n) :
    ∃ a, readScalar s.payload o id 0 n = .ok a ∧ stats a = .ok () := by
  unfold readScalar
  split
  · rw [readI64_whole (by omega) h]
    refine ⟨_, rfl, ?_⟩
    unfold stats
    rw [if_neg]
    show (unpackInts o 8 n.toNat s.payload).length ≠ 0
    rw [length_unpackInts]; omega
  · rw [readF64_whole (by omega) h]
    refine ⟨_, rfl, ?_⟩
    unfold stats
    rw [if_neg]
    show (unpackF64s o n.toNat s.payload).length ≠ 0
    rw [length_unpackF64s]; omega

theorem readRows_can {o : Order} {s : Sec} {n : Int} {tail : List Nat} (h0 : 0 < n * (tail.prod : Nat))
    (h : (s.payload.length : Int) = 8 * (n * (tail.prod : Nat))) :
    ∃ a, readRows s.payload o 0 n tail = .ok a ∧ stats a = .ok () := by
  unfold readRows
  rw [readF64_whole (by omega) h]
  refine ⟨_, rfl, ?_⟩
  unfold stats
  rw [if_neg]
  show (unpackF64s o _ s.payload).length ≠ 0
  rw [length_unpackF64s]; omega

theorem payload_of_array {o : Order} {s : Sec} {n : Int} {a : NpArr} (h : ArrayOf o s n a) (hs : 0 < a.size) :
    s.payload ≠ [] := by
  intro he
  have hs := Nat.pos_iff_ne_zero.1 hs
  rcases h.data with ⟨_, l, h1, h2, _⟩ | ⟨_, l, h1, h2⟩
  · have : l.length = 0 := by
      have := congrArg List.length h2
      rw [he] at this
      simp at this
      rw [this]; rfl
    unfold NpArr.size at hs
    rw [h1] at hs
    exact hs this
  · have : l.length = 0 := by
      have := congrArg List.length h2
      rw [he] at this
      simp at this
      rw [this]; rfl
    unfold NpArr.size at hs
    rw [h1] at hs
    exact hs this

/-! ## Attributes -/

/-- The attributes belong to a `DataSet`. -/
def IsSet (st : RVars) : Prop := st.attrs.cls = .dataSet

theorem setNdofAttrs_can {a : DataAttrs} (h : a.cls = .dataSet) (n : Int) :
    ∃ b, setNdofAttrs a n = .ok b ∧ b.cls = .dataSet := by
  unfold setNdofAttrs
  split
  · unfold DataAttrs.setXrep DataAttrs.setNdof
    rw [h]
    exact ⟨{ a with xrep := "spectralcell", ndof := n }, by simp [DataClass.xreps, pyAssert, Except_bind_ok, Except_pure, h], h⟩
  · exact ⟨a, rfl, h⟩

theorem ndofOf_can {ver : Int} {h : Header} (hv : 0 ≤ ver) : ndofOf ver (h.int 1) = .ok (dofs ver h) := by
  unfold ndofOf dofs
  rw [if_neg (by omega)]
  split
  · rw [if_pos (.inl (by assumption))]
  · split
    · rw [if_pos (.inr (by assumption))]
    · rw [if_neg (by omega)]

theorem version_of_ndof {ver k n : Int} (h : ndofOf ver k = .ok n) : 0 ≤ ver := by
  unfold ndofOf at h
  split at h
  · cases h
  · omega

theorem length_pos_of_ne {b : Bytes} (h : b ≠ []) : 0 < b.length := List.length_pos_of_ne_nil h

/-! ## Steps -/

theorem scalarStep_can {o : Order} {ver : Int} {c : Counts} {s : Sec} {st : RVars}
    (hid : s.h.id ∈ [(32 : Int), 34, 24, 42, 45]) (hz : Sized ver c s) (hp : Placed ver c s) (hs : IsSet st) :
    ∃ st' k b, scalarStep s.payload o ver c.no c.fa c.cv st s.h 0 = .ok (st', k, b) ∧ IsSet st' := by
  have hr : room ver c s.h = (if s.h.int 0 = c.no then some (8 * c.no) else if s.h.int 0 = c.fa then some (8 * c.fa)
      else if s.h.int 0 = c.cv then some (8 * (dofs ver s.h * c.cv)) else none) := by
    simp only [List.mem_cons, List.not_mem_nil, or_false] at hid
    unfold room
    rcases hid with e | e | e | e | e <;> rw [e] <;> rfl
  obtain ⟨h0, hp⟩ := hp
  have h0 := length_pos_of_ne h0
  unfold Sized at hz
  rw [hr] at hz
  unfold scalarStep
  by_cases h1 : s.h.int 0 = c.no
  · rw [if_pos h1] at hz ⊢
    have := hz _ rfl
    obtain ⟨a, ha, hst⟩ := readScalar_can (o := o) (s := s) (id := s.h.id) (n := c.no) (by omega) (hz _ rfl)
    rw [ha, Except_bind_ok, hst, Except_bind_ok]
    exact ⟨_, _, _, rfl, hs⟩
  · rw [if_neg h1] at hz ⊢
    by_cases h2 : s.h.int 0 = c.fa
    · rw [if_pos h2] at hz ⊢
      have := hz _ rfl
      obtain ⟨a, ha, hst⟩ := readScalar_can (o := o) (s := s) (id := s.h.id) (n := c.fa) (by omega) (hz _ rfl)
      rw [ha, Except_bind_ok, hst, Except_bind_ok]
      exact ⟨_, _, _, rfl, hs⟩
    · rw [if_neg h2] at hz ⊢
      rcases hp with h | h | ⟨h3, hv⟩
      · exact absurd h h1
      · exact absurd h h2
      · rw [if_pos h3] at hz ⊢
        have := hz _ rfl
        obtain ⟨a, ha, hst⟩ := readScalar_can (o := o) (s := s) (id := s.h.id) (n := dofs ver s.h * c.cv) (by omega) (hz _ rfl)
        obtain ⟨b, hb, hb2⟩ := setNdofAttrs_can hs (dofs ver s.h)
        rw [ndofOf_can hv, Except_bind_ok, hb, Except_bind_ok, ha, Except_bind_ok, hst, Except_bind_ok]
        exact ⟨_, _, _, rfl, hb2⟩

theorem vectorStep_can {o : Order} {ver : Int} {c : Counts} {s : Sec} {st : RVars}
    (hid : s.h.id ∈ [(33 : Int), 25, 43]) (hz : Sized ver c s) (hp : Placed ver c s) (hs : IsSet st) :
    ∃ st' k b, vectorStep s.payload o ver c.no c.fa c.cv st s.h 0 = .ok (st', k, b) ∧ IsSet st' := by
  have hr : room ver c s.h = (if s.h.int 0 = c.no then some (24 * c.no) else if s.h.int 0 = c.fa then some (24 * c.fa)
      else if s.h.int 0 = c.cv then some (24 * (dofs ver s.h * c.cv)) else none) := by
    simp only [List.mem_cons, List.not_mem_nil, or_false] at hid
    unfold room
    rcases hid with e | e | e <;> rw [e] <;> rfl
  have h3' : (([3] : List Nat).prod : Int) = 3 := by decide
  obtain ⟨h0, hp⟩ := hp
  have h0 := length_pos_of_ne h0
  unfold Sized at hz
  rw [hr] at hz
  unfold vectorStep
  by_cases h1 : s.h.int 0 = c.no
  · rw [if_pos h1] at hz ⊢
    have := hz _ rfl
    obtain ⟨a, ha, hst⟩ := readRows_can (o := o) (s := s) (n := c.no) (tail := [3]) (by rw [h3']; omega) (by rw [h3']; omega)
    rw [ha, Except_bind_ok, hst, Except_bind_ok]
    exact ⟨_, _, _, rfl, hs⟩
  · rw [if_neg h1] at hz ⊢
    by_cases h2 : s.h.int 0 = c.fa
    · rw [if_pos h2] at hz ⊢
      have := hz _ rfl
      obtain ⟨a, ha, hst⟩ := readRows_can (o := o) (s := s) (n := c.fa) (tail := [3]) (by rw [h3']; omega) (by rw [h3']; omega)
      rw [ha, Except_bind_ok, hst, Except_bind_ok]
      exact ⟨_, _, _, rfl, hs⟩
    · rw [if_neg h2] at hz ⊢
      rcases hp with h | h | ⟨h3, hv⟩
      · exact absurd h h1
      · exact absurd h h2
      · rw [if_pos h3] at hz ⊢
        have := hz _ rfl
        obtain ⟨a, ha, hst⟩ := readRows_can (o := o) (s := s) (n := dofs ver s.h * c.cv) (tail := [3]) (by rw [h3']; omega)
          (by rw [h3']; omega)
        obtain ⟨b, hb, hb2⟩ := setNdofAttrs_can hs (dofs ver s.h)
        rw [ndofOf_can hv, Except_bind_ok, hb, Except_bind_ok, ha, Except_bind_ok, hst, Except_bind_ok]
        exact ⟨_, _, _, rfl, hb2⟩

theorem tensorStep_can {o : Order} {ver : Int} {c : Counts} {s : Sec} {st : RVars}
    (hid : s.h.id ∈ [(44 : Int)]) (hz : Sized ver c s) (h0 : s.payload ≠ []) (h3 : s.h.int 0 = c.cv) (hv : 0 ≤ ver)
    (hs : IsSet st) :
    ∃ st' k b, tensorStep s.payload o ver c.cv st s.h 0 = .ok (st', k, b) ∧ IsSet st' := by
  have hid := List.mem_singleton.1 hid
  have hr : room ver c s.h = (if s.h.int 0 = c.cv then some (72 * (dofs ver s.h * c.cv)) else none) := by
    unfold room
    rw [hid]; rfl
  have h9 : (([3, 3] : List Nat).prod : Int) = 9 := by decide
  have h0 := length_pos_of_ne h0
  unfold Sized at hz
  rw [hr] at hz
  unfold tensorStep
  rw [if_pos h3] at hz ⊢
  have := hz _ rfl
  obtain ⟨a, ha, hst⟩ := readRows_can (o := o) (s := s) (n := dofs ver s.h * c.cv) (tail := [3, 3]) (by rw [h9]; omega)
    (by rw [h9]; omega)
  obtain ⟨b, hb, hb2⟩ := setNdofAttrs_can hs (dofs ver s.h)
  rw [ndofOf_can hv, Except_bind_ok, hb, Except_bind_ok, ha, Except_bind_ok, hst, Except_bind_ok]
  exact ⟨_, _, _, rfl, hb2⟩

theorem scalarStep_placed {o : Order} {ver : Int} {c : Counts} {s : Sec} {st st' : RVars} {k : Nat} {b : Bool}
    (hid : s.h.id ∈ [(32 : Int), 34, 24, 42, 45]) (hz : Sized ver c s)
    (h : scalarStep s.payload o ver c.no c.fa c.cv st s.h 0 = .ok (st', k, b)) : Placed ver c s := by
  have hr : room ver c s.h = (if s.h.int 0 = c.no then some (8 * c.no) else if s.h.int 0 = c.fa then some (8 * c.fa)
      else if s.h.int 0 = c.cv then some (8 * (dofs ver s.h * c.cv)) else none) := by
    simp only [List.mem_cons, List.not_mem_nil, or_false] at hid
    unfold room
    rcases hid with e | e | e | e | e <;> rw [e] <;> rfl
  unfold Sized at hz
  rw [hr] at hz
  unfold scalarStep at h
  by_cases h1 : s.h.int 0 = c.no
  · rw [if_pos h1] at hz h
    obtain ⟨a, ha, h⟩ := bind_eq_ok.1 h
    obtain ⟨_, hst, h⟩ := bind_eq_ok.1 h
    exact ⟨payload_of_array (readScalar_inv ha hid (hz _ rfl)) (stats_pos hst), .inl h1⟩
  · rw [if_neg h1] at hz h
    by_cases h2 : s.h.int 0 = c.fa
    · rw [if_pos h2] at hz h
      obtain ⟨a, ha, h⟩ := bind_eq_ok.1 h
      obtain ⟨_, hst, h⟩ := bind_eq_ok.1 h
      exact ⟨payload_of_array (readScalar_inv ha hid (hz _ rfl)) (stats_pos hst), .inr (.inl h2)⟩
    · rw [if_neg h2] at hz h
      by_cases h3 : s.h.int 0 = c.cv
      · rw [if_pos h3] at hz h
        obtain ⟨n, hn, h⟩ := bind_eq_ok.1 h
        obtain ⟨at', hat, h⟩ := bind_eq_ok.1 h
        obtain ⟨a, ha, h⟩ := bind_eq_ok.1 h
        obtain ⟨_, hst, h⟩ := bind_eq_ok.1 h
        have e := ndofOf_dofs hn
        subst e
        exact ⟨payload_of_array (readScalar_inv ha hid (hz _ rfl)) (stats_pos hst), .inr (.inr ⟨h3, version_of_ndof hn⟩)⟩
      · rw [if_neg h3] at h
        cases h

theorem vectorStep_placed {o : Order} {ver : Int} {c : Counts} {s : Sec} {st st' : RVars} {k : Nat} {b : Bool}
    (hid : s.h.id ∈ [(33 : Int), 25, 43]) (hz : Sized ver c s)
    (h : vectorStep s.payload o ver c.no c.fa c.cv st s.h 0 = .ok (st', k, b)) : Placed ver c s := by
  have hr : room ver c s.h = (if s.h.int 0 = c.no then some (24 * c.no) else if s.h.int 0 = c.fa then some (24 * c.fa)
      else if s.h.int 0 = c.cv then some (24 * (dofs ver s.h * c.cv)) else none) := by
    simp only [List.mem_cons, List.not_mem_nil, or_false] at hid
    unfold room
    rcases hid with e | e | e <;> rw [e] <;> rfl
  have hcs : componentShape s = [3] ∧ s.h.id ∉ [(34 : Int), 45] := by
    simp only [List.mem_cons, List.not_mem_nil, or_false] at hid
    unfold componentShape
    rcases hid with e | e | e <;> rw [e] <;> exact ⟨rfl, by decide⟩
  have h3' : (([3] : List Nat).prod : Int) = 3 := by decide
  unfold Sized at hz
  rw [hr] at hz
  unfold vectorStep at h
  by_cases h1 : s.h.int 0 = c.no
  · rw [if_pos h1] at hz h
    have hl := hz _ rfl
    obtain ⟨a, ha, h⟩ := bind_eq_ok.1 h
    obtain ⟨_, hst, h⟩ := bind_eq_ok.1 h
    exact ⟨payload_of_array (readRows_inv ha hcs.1 hcs.2 (by rw [h3']; omega)) (stats_pos hst), .inl h1⟩
  · rw [if_neg h1] at hz h
    by_cases h2 : s.h.int 0 = c.fa
    · rw [if_pos h2] at hz h
      have hl := hz _ rfl
      obtain ⟨a, ha, h⟩ := bind_eq_ok.1 h
      obtain ⟨_, hst, h⟩ := bind_eq_ok.1 h
      exact ⟨payload_of_array (readRows_inv ha hcs.1 hcs.2 (by rw [h3']; omega)) (stats_pos hst), .inr (.inl h2)⟩
    · rw [if_neg h2] at hz h
      by_cases h3 : s.h.int 0 = c.cv
      · rw [if_pos h3] at hz h
        have hl := hz _ rfl
        obtain ⟨n, hn, h⟩ := bind_eq_ok.1 h
        obtain ⟨at', hat, h⟩ := bind_eq_ok.1 h
        obtain ⟨a, ha, h⟩ := bind_eq_ok.1 h
        obtain ⟨_, hst, h⟩ := bind_eq_ok.1 h
        have e := ndofOf_dofs hn
        subst e
        exact ⟨payload_of_array (readRows_inv ha hcs.1 hcs.2 (by rw [h3']; omega)) (stats_pos hst),
          .inr (.inr ⟨h3, version_of_ndof hn⟩)⟩
      · rw [if_neg h3] at h
        cases h

theorem tensorStep_placed {o : Order} {ver : Int} {c : Counts} {s : Sec} {st st' : RVars} {k : Nat} {b : Bool}
    (hid : s.h.id ∈ [(44 : Int)]) (hz : Sized ver c s)
    (h : tensorStep s.payload o ver c.cv st s.h 0 = .ok (st', k, b)) : s.payload ≠ [] ∧ s.h.int 0 = c.cv ∧ 0 ≤ ver := by
  have hid := List.mem_singleton.1 hid
  have hr : room ver c s.h = (if s.h.int 0 = c.cv then some (72 * (dofs ver s.h * c.cv)) else none) := by
    unfold room
    rw [hid]; rfl
  have hcs : componentShape s = [3, 3] ∧ s.h.id ∉ [(34 : Int), 45] := by
    unfold componentShape
    rw [hid]; exact ⟨rfl, by decide⟩
  have h9 : (([3, 3] : List Nat).prod : Int) = 9 := by decide
  unfold Sized at hz
  rw [hr] at hz
  unfold tensorStep at h
  by_cases h3 : s.h.int 0 = c.cv
  · rw [if_pos h3] at hz h
    have hl := hz _ rfl
    obtain ⟨n, hn, h⟩ := bind_eq_ok.1 h
    obtain ⟨at', hat, h⟩ := bind_eq_ok.1 h
    obtain ⟨a, ha, h⟩ := bind_eq_ok.1 h
    obtain ⟨_, hst, h⟩ := bind_eq_ok.1 h
    have e := ndofOf_dofs hn
    subst e
    exact ⟨payload_of_array (readRows_inv ha hcs.1 hcs.2 (by rw [h9]; omega)) (stats_pos hst), h3, version_of_ndof hn⟩
  · rw [if_neg h3] at h
    cases h

/-! ## Data -/

theorem mem_only {K : List Int} {l : List Sec} {s : Sec} (hs : s ∈ only K l) : s ∈ l ∧ s.h.id ∈ K := by
  obtain ⟨a, b⟩ := List.mem_filter.1 hs
  exact ⟨a, of_decide_eq_true b⟩

theorem varsOf_iff {o : Order} {ver : Int} {l : List Sec} {c : Counts} (hz : ∀ s ∈ l, Sized ver c s) :
    (∃ st, varsOf o ver c.no c.fa c.cv l = .ok st) ↔
      (∀ s ∈ only [32, 34, 24, 42, 45, 33, 25, 43] l, Placed ver c s) ∧
      ∀ s ∈ only [44] l, s.payload ≠ [] ∧ s.h.int 0 = c.cv ∧ 0 ≤ ver := by
  constructor
  · rintro ⟨st, h⟩
    unfold varsOf at h
    obtain ⟨s1, h1, h⟩ := bind_eq_ok.1 h
    obtain ⟨s2, h2, h⟩ := bind_eq_ok.1 h
    have e1 := runLoop_each (fun s hs st st' k b hg =>
      (scalarStep_ok (o := o) (mem_only hs).2 (hz s (mem_only hs).1) hg).1) h1
    have e2 := runLoop_each (fun s hs st st' k b hg =>
      (vectorStep_ok (o := o) (mem_only hs).2 (hz s (mem_only hs).1) hg).1) h2
    have e3 := runLoop_each (fun s hs st st' k b hg =>
      (tensorStep_ok (o := o) (mem_only hs).2 (hz s (mem_only hs).1) hg).1) h
    refine ⟨fun s hs => ?_, fun s hs => ?_⟩
    · obtain ⟨hm, hid⟩ := mem_only hs
      by_cases hid2 : s.h.id ∈ [(32 : Int), 34, 24, 42, 45]
      · obtain ⟨st, st', k, hg⟩ := e1 s (List.mem_filter.2 ⟨hm, decide_eq_true hid2⟩)
        exact scalarStep_placed hid2 (hz s hm) hg
      · have hid3 : s.h.id ∈ [(33 : Int), 25, 43] := by
          simp only [List.mem_cons, List.not_mem_nil, or_false] at hid hid2 ⊢
          omega
        obtain ⟨st, st', k, hg⟩ := e2 s (List.mem_filter.2 ⟨hm, decide_eq_true hid3⟩)
        exact vectorStep_placed hid3 (hz s hm) hg
    · obtain ⟨st, st', k, hg⟩ := e3 s hs
      exact tensorStep_placed (mem_only hs).2 (hz s (mem_only hs).1) hg
  · rintro ⟨hp, ht⟩
    obtain ⟨s1, h1, i1⟩ := runLoop_can (I := IsSet) (g := fun st s => scalarStep s.payload o ver c.no c.fa c.cv st s.h 0)
      (l := only [cNoD1, cNoII1, cFaD1, cCvD1, cCvII1] l) (st := vars0)
      (fun s hs st hI => scalarStep_can (mem_only hs).2 (hz s (mem_only hs).1) (hp s (by
        obtain ⟨hm, hid⟩ := mem_only hs
        refine List.mem_filter.2 ⟨hm, decide_eq_true ?_⟩
        exact List.mem_append_left [33, 25, 43] hid)) hI) rfl
    obtain ⟨s2, h2, i2⟩ := runLoop_can (I := IsSet) (g := fun st s => vectorStep s.payload o ver c.no c.fa c.cv st s.h 0)
      (l := only [cNoD3, cFaD3, cCvD3] l) (st := s1)
      (fun s hs st hI => vectorStep_can (mem_only hs).2 (hz s (mem_only hs).1) (hp s (by
        obtain ⟨hm, hid⟩ := mem_only hs
        refine List.mem_filter.2 ⟨hm, decide_eq_true ?_⟩
        exact List.mem_append_right [32, 34, 24, 42, 45] hid)) hI) i1
    obtain ⟨s3, h3, i3⟩ := runLoop_can (I := IsSet) (g := fun st s => tensorStep s.payload o ver c.cv st s.h 0)
      (l := only [cCvD33] l) (st := s2)
      (fun s hs st hI => tensorStep_can (mem_only hs).2 (hz s (mem_only hs).1) (ht s hs).1 (ht s hs).2.1 (ht s hs).2.2 hI) i2
    unfold varsOf
    rw [h1, Except_bind_ok, h2, Except_bind_ok, h3]
    exact ⟨s3, rfl⟩

/-! ## Mesh -/

theorem npGet_iff {α : Type} {a : List α} {i : Int} : (∃ x, npGet a i = .ok x) ↔ -(a.length : Int) ≤ i ∧ i < a.length := by
  unfold npGet
  by_cases h : i < 0
  · simp only [if_pos h]
    split
    · simp only [reduceCtorEq, exists_false, false_iff]; omega
    · rw [List.getElem?_eq_getElem (by omega)]
      simp only [Except.ok.injEq, exists_eq', true_iff]; omega
  · simp only [if_neg h]
    by_cases h2 : i < a.length
    · rw [List.getElem?_eq_getElem (by omega)]
      simp only [Except.ok.injEq, exists_eq', true_iff]; omega
    · rw [List.getElem?_eq_none (by omega)]
      simp only [reduceCtorEq, exists_false, false_iff]; omega

theorem zonesRead_can {z : Csr} {l : List Sec} {st : List Mark}
    (h : ∀ s ∈ upTo6 l, (zoneType (s.h.int 0)).isSome = true ∧ ∃ x, npGet z.index (s.h.int 1) = .ok x) :
    ∃ bocos, runLoop (fun st s => zoneStep z st s.h 0) l st = .ok bocos := by
  induction l generalizing st with
  | nil => exact ⟨st, rfl⟩
  | cons s t ih =>
    have hs := h s (by unfold upTo6; split <;> simp)
    obtain ⟨h1, x, hx⟩ := hs
    have ht : ∃ t, zonekind2type.getE (s.h.int 0) = .ok t := by
      revert h1
      generalize s.h.int 0 = i
      intro h1
      unfold zoneType at h1
      split at h1
      · exact ⟨_, rfl⟩
      · exact ⟨_, rfl⟩
      · exact ⟨_, rfl⟩
      · exact ⟨_, rfl⟩
      · exact ⟨_, rfl⟩
      · exact ⟨_, rfl⟩
      · cases h1
    obtain ⟨ty, ht⟩ := ht
    unfold runLoop zoneStep
    rw [ht, Except_bind_ok, hx, Except_bind_ok]
    by_cases e : s.h.int 0 = 6
    · simp only [e, ne_eq, not_true_eq_false, decide_false, Except_pure]
      exact ⟨_, rfl⟩
    · simp only [e, ne_eq, not_false_eq_true, decide_true, Except_pure]
      refine ih fun s' hs' => h s' ?_
      unfold upTo6
      rw [if_neg e]
      exact List.mem_cons_of_mem _ hs'

theorem noofaOf_can {o : Order} {s : Sec} {fa noofa : Int} {nno value : List Int} (h1 : s.h.int 0 = fa) (h2 : s.h.int 1 = noofa)
    (hl : (nno.length : Int) = fa) (hv : (value.length : Int) = noofa) (h0 : nno ≠ []) (hp : ∀ n ∈ nno, 0 ≤ n)
    (hs : nno.sum = value.length) (hb : s.payload = intsBytes o 4 nno ++ intsBytes o 4 value)
    (hf : ∀ n ∈ nno, FitsInt 4 n) (hf2 : ∀ n ∈ value, FitsInt 4 n) :
    noofaOf o s fa noofa = .ok ⟨offsets 0 nno, value⟩ := by
  have a0 : At s.payload 0 (intsBytes o 4 nno ++ intsBytes o 4 value) := by
    rw [hb]; exact ⟨[], by simp, rfl⟩
  have r1 := a0.readI32 hf (n := fa) hl.symm
  have a1 := a0.step' (n := 4 * fa.toNat) (by simp; omega)
  rw [Nat.zero_add, ← List.append_nil (intsBytes o 4 value)] at a1
  have r2 := a1.readI32 hf2 (n := noofa) hv.symm
  obtain ⟨a, b, g1, g2, g3⟩ := noofa_tests (noofa := nno) (value := value) (List.length_pos_of_ne_nil h0) hs
  unfold noofaOf
  rw [r1, r2]
  simp only [orRaise, Except_bind_ok, g1, g2, g3, h1, h2, hv, pyAssert, decide_true, if_true, offsets_check nno value hp hs,
    Except_pure]

theorem cvofaOf_can {o : Order} {s : Sec} {fa cv : Int} {rows : List (Int × Int)} (h1 : s.h.int 0 = fa) (h2 : s.h.int 1 = 2)
    (hl : (rows.length : Int) = fa) (hb : s.payload = intsBytes o 4 (rows.flatMap fun r => [r.1, r.2]))
    (hf : ∀ q ∈ rows, FitsInt 4 q.1 ∧ FitsInt 4 q.2) (hle : ∀ q ∈ rows, q.1 < cv ∧ q.2 < cv)
    (hm : ∃ q ∈ rows, q.1 = cv - 1 ∨ q.2 = cv - 1) : cvofaOf o s fa cv = .ok rows := by
  have a0 : At s.payload 0 (intsBytes o 4 (rows.flatMap fun r => [r.1, r.2]) ++ []) := by
    rw [hb]; exact ⟨[], by simp, rfl⟩
  have hmem : ∀ x ∈ rows.flatMap (fun r => [r.1, r.2]), ∃ q ∈ rows, x = q.1 ∨ x = q.2 := by
    intro x hx
    obtain ⟨q, hq, hx⟩ := List.mem_flatMap.1 hx
    exact ⟨q, hq, by simpa using hx⟩
  have r1 := a0.readI32 (n := fa * 2) (fun x hx => by
    obtain ⟨q, hq, rfl | rfl⟩ := hmem x hx
    · exact (hf q hq).1
    · exact (hf q hq).2) (by rw [length_flatMap_pairs]; omega)
  have hmax : (rows.flatMap fun r => [r.1, r.2]).max? = some (cv - 1) := by
    rw [List.max?_eq_some_iff]
    refine ⟨?_, ?_⟩
    · obtain ⟨q, hq, hx⟩ := hm
      refine List.mem_flatMap.2 ⟨q, hq, ?_⟩
      rcases hx with hx | hx <;> simp [hx]
    · intro x hx
      obtain ⟨q, hq, rfl | rfl⟩ := hmem x hx
      · have := (hle q hq).1; omega
      · have := (hle q hq).2; omega
  unfold cvofaOf
  rw [r1]
  simp only [orRaise, Except_bind_ok, h1, h2, hmax, pyAssert, decide_true, if_true, pairs_flatMap, Except_pure,
    show decide (cv - 1 < cv) = true from decide_eq_true (by omega)]

theorem partOf_can {o : Order} {s : Sec} {cv : Int} (h0 : 0 ≤ cv) (hz : (s.payload.length : Int) = 4 * cv) :
    ∃ r, partOf o s cv = .ok r := by
  unfold partOf
  rw [readI32_whole h0 hz]
  exact ⟨_, rfl⟩

theorem coordsOf_can {o : Order} {s : Sec} {no : Int} (h0 : 0 ≤ no) (h1 : s.h.int 0 = no) (h2 : s.h.int 1 = 3)
    (hz : (s.payload.length : Int) = 24 * no) : ∃ r, coordsOf o s no = .ok r ∧ r.length = no.toNat := by
  have hr := readF64_whole (b := s.payload) (o := o) (n := no * 3) (by omega) (by omega)
  have ht := flat_triples no.toNat (unpackF64s o (no * 3).toNat s.payload) (by rw [length_unpackF64s]; omega)
  unfold coordsOf
  rw [hr]
  simp only [orRaise, Except_bind_ok, h1, h2, pyAssert, decide_true, if_true, Except_pure]
  exact ⟨_, rfl, ht.2⟩

theorem sum_lengths (faces : List Face) :
    (faces.map fun a => (a.1.length : Int)).sum = ((faces.flatMap fun a => a.1).length : Nat) := by
  induction faces with
  | nil => rfl
  | cons a t ih => simp only [List.map_cons, List.sum_cons, ih, List.flatMap_cons, List.length_append]; omega

theorem close_iff {l : List Int} {n : Int} (h : (l.length : Int) = n) : closeToRange l n = true ↔ Consecutive l := by
  unfold closeToRange Consecutive
  rw [List.all_eq_true]
  have hr : ∀ i : Nat, i < l.length → (pyRange 0 n)[i]? = some (i : Int) := by
    intro i hi
    rw [List.getElem?_eq_getElem (by simp; omega), getElem_pyRange]
    simp
  constructor
  · intro ha i x hx
    have hi := (List.getElem?_eq_some_iff.1 hx).1
    have := ha (x, (i : Int)) (List.mem_of_getElem? (i := i) (by rw [List.getElem?_zip_eq_some]; exact ⟨hx, hr i hi⟩))
    have := of_decide_eq_true this
    omega
  · intro hc p hp
    obtain ⟨i, hi⟩ := List.getElem?_of_mem hp
    rw [List.getElem?_zip_eq_some] at hi
    have h1 := (List.getElem?_eq_some_iff.1 hi.1).1
    have h2 := hi.2
    rw [hr i h1] at h2
    have := hc i p.1 hi.1
    have e := Option.some.inj h2
    refine decide_eq_true ?_
    omega

theorem checkRange_iff {o : Order} {s : Sec} {n : Int} (h0 : 0 ≤ n) (h : (s.payload.length : Int) = 4 * n) :
    checkRange s.payload o 0 n = .ok () ↔
      ∃ numbers, s.payload = intsBytes o 4 numbers ∧ (∀ n ∈ numbers, FitsInt 4 n) ∧ Consecutive numbers := by
  have hu := ints_unpack o (k := 4) (n := n.toNat) (b := s.payload) (by decide) (by omega)
  unfold checkRange
  constructor
  · intro hk
    rw [readI32_whole h0 h] at hk
    simp only [Except_bind_ok, orRaise, pyAssert_eq_ok] at hk
    refine ⟨_, hu.symm, ?_, (close_iff (by rw [length_unpackInts]; omega)).1 hk⟩
    intro x hx
    exact (readI32_fit (readI32_whole h0 h)).2.2 x hx
  · rintro ⟨numbers, hb, hf, hc⟩
    have a0 : At s.payload 0 (intsBytes o 4 numbers ++ []) := by
      rw [hb]; exact ⟨[], by simp, rfl⟩
    have hl : n = numbers.length := by
      rw [hb] at h
      simp only [length_intsBytes] at h
      omega
    rw [a0.readI32 hf hl]
    simp only [Except_bind_ok, orRaise, pyAssert_eq_ok]
    exact (close_iff hl.symm).2 hc

theorem integrityOf_iff {o : Order} {ver : Int} {l : List Sec} (hs : Sections ver l) :
    integrityOf o l (countsOf l).no (countsOf l).fa (countsOf l).cv = .ok () ↔ Numbered o l := by
  have hc := hs.counts
  have z30 : ∀ s, first 30 l = some s → (s.payload.length : Int) = 4 * (countsOf l).no :=
    fun s h => sized_first hs h (by intro h e; unfold room; rw [e]; rfl)
  have z20 : ∀ s, first 20 l = some s → (s.payload.length : Int) = 4 * (countsOf l).fa :=
    fun s h => sized_first hs h (by intro h e; unfold room; rw [e]; rfl)
  have z40 : ∀ s, first 40 l = some s → (s.payload.length : Int) = 4 * (countsOf l).cv :=
    fun s h => sized_first hs h (by intro h e; unfold room; rw [e]; rfl)
  unfold integrityOf Numbered Lists
  rw [show cNoCheck = 30 from rfl, show cFaCheck = 20 from rfl, show cCvCheck = 40 from rfl]
  cases h30 : first 30 l with
  | none => simp
  | some s30 =>
    have i30 : s30.h.id = 30 := (first_mem h30).2
    simp only [reduceCtorEq, false_or, Option.some.injEq, Option.map_some, bind_eq_ok, pyAssert_eq_ok, decide_eq_true_eq,
      exists_eq_left', exists_and_left, exists_const]
    constructor
    · rintro ⟨h1, _, ⟨⟩, h2, s20, h3, ⟨⟩, h4, s40, h5, h6, _, h7⟩
      have e20 := req_ok h3
      have e40 := req_ok h5
      exact ⟨(checkRange_iff hc.1 (z30 _ h30)).1 h2, ⟨s20, e20, (checkRange_iff hc.2.1 (z20 _ e20)).1 h4⟩,
        ⟨s40, e40, (checkRange_iff hc.2.2.1 (z40 _ e40)).1 h7⟩, h1, by rw [e40]; exact congrArg some h6⟩
    · rintro ⟨h1, ⟨s20, e20, h2⟩, ⟨s40, e40, h3⟩, h4, h5⟩
      rw [e40] at h5
      have i40 : s40.h.id = 40 := (first_mem e40).2
      refine ⟨h4, i30, (), (checkRange_iff hc.1 (z30 _ h30)).2 h1, s20, by rw [e20]; rfl, (),
        (checkRange_iff hc.2.1 (z20 _ e20)).2 h2, s40, by rw [e40]; rfl, Option.some.inj h5, i40,
        (checkRange_iff hc.2.2.1 (z40 _ e40)).2 h3⟩

theorem readOf_can {o : Order} {ver : Int} {l : List Sec} (hs : Sections ver l) (ha : Acceptable o ver l) {integ : Bool}
    (hi : integ = true → Numbered o l) : ∃ f, readOf integ o ver l = .ok f := by
  obtain ⟨faces, ⟨c10, tn, ⟨s21, f21, t1, t2, t3⟩, ⟨s22, f22, u1, u2, u3⟩, hf⟩, hn4, hlt, hlast⟩ := ha.faces
  obtain ⟨s10, f10⟩ := Option.isSome_iff_exists.1 c10
  obtain ⟨s41, f41⟩ := Option.isSome_iff_exists.1 ha.part
  obtain ⟨s31, f31, x1, x2⟩ := ha.points
  have hc := hs.counts
  have hz21 : (s21.payload.length : Int) = 4 * (countsOf l).fa + 4 * (countsOf l).noofa :=
    sized_first hs f21 (by intro h e; unfold room; rw [e]; rfl)
  have hz41 : (s41.payload.length : Int) = 4 * (countsOf l).cv := sized_first hs f41 (by intro h e; unfold room; rw [e]; rfl)
  have hz31 : (s31.payload.length : Int) = 24 * (countsOf l).no := sized_first hs f31 (by intro h e; unfold room; rw [e]; rfl)
  have hne : faces ≠ [] := by
    rintro rfl
    obtain ⟨a, h, _⟩ := hlast
    cases h
  have hval : ((faces.flatMap fun a => a.1).length : Int) = (countsOf l).noofa := by
    have := congrArg List.length t3
    simp only [List.length_append, length_intsBytes, List.length_map] at this
    omega
  have k1 := noofaOf_can (o := o) (s := s21) (fa := (countsOf l).fa) (noofa := (countsOf l).noofa)
    (nno := faces.map fun a => (a.1.length : Int)) (value := faces.flatMap fun a => a.1) t1 t2
    (by rw [List.length_map]; exact tn) hval (by simpa using hne)
    (by intro n hn; obtain ⟨a, _, rfl⟩ := List.mem_map.1 hn; omega) (sum_lengths faces) t3
    (by
      intro n hn
      obtain ⟨a, ha, rfl⟩ := List.mem_map.1 hn
      have := hn4 a ha
      constructor <;> omega)
    (by intro n hn; obtain ⟨a, ha, h⟩ := List.mem_flatMap.1 hn; exact (hf a ha).1 n h)
  have k2 := cvofaOf_can (o := o) (s := s22) (fa := (countsOf l).fa) (cv := (countsOf l).cv) (rows := faces.map (·.2)) u1 u2
    (by rw [List.length_map]; exact tn) (by rw [u3, List.flatMap_map])
    (by intro q hq; obtain ⟨a, ha, rfl⟩ := List.mem_map.1 hq; exact (hf a ha).2)
    (by intro q hq; obtain ⟨a, ha, rfl⟩ := List.mem_map.1 hq; exact hlt a ha)
    (by obtain ⟨a, ha, h⟩ := hlast; exact ⟨a.2, List.mem_map_of_mem ha, h⟩)
  obtain ⟨bocos, k3⟩ := zonesRead_can (z := ⟨offsets 0 (faces.map fun a => (a.1.length : Int)), faces.flatMap fun a => a.1⟩)
    (l := only [23] (after 22 l)) (st := []) (by
      intro s hm
      obtain ⟨z1, z2, z3⟩ := ha.zones s hm
      refine ⟨z1, npGet_iff.2 ?_⟩
      simp only [offsets_length, List.length_map]
      omega)
  obtain ⟨⟨np, icv⟩, k4⟩ := partOf_can (o := o) hc.2.2.1 hz41
  obtain ⟨pts, k5, k6⟩ := coordsOf_can (o := o) hc.1 x1 x2 hz31
  have hcount : countsOf l = ⟨s10.h.int 0, s10.h.int 1, s10.h.int 2, s10.h.int 3⟩ := by
    unfold countsOf; rw [f10]
  obtain ⟨vars, k7⟩ := (varsOf_iff (o := o) (c := countsOf l) hs.sizes).2 ⟨ha.data, ha.tensors⟩
  obtain ⟨sim, k8, -⟩ := runLoop_can (g := fun (st : Dict String SimVal) s => infoStep st s.h 0) (I := fun _ => True)
    (l := only [cI0, cD0] l) (st := [("step", .int 0), ("dt", .int 0), ("time", .int 0), ("wgt", .wgts [])])
    (fun s _ st _ => by unfold infoStep; split <;> exact ⟨_, _, _, rfl, trivial⟩) trivial
  obtain ⟨c, k9, -⟩ := import_ok (faces.map (·.1)) (by
    intro f hf
    obtain ⟨a, ha, rfl⟩ := List.mem_map.1 hf
    exact hn4 a ha)
  have ecsr : csrOf (faces.map (·.1)) = ⟨offsets 0 (faces.map fun a => (a.1.length : Int)), faces.flatMap fun a => a.1⟩ := by
    unfold csrOf
    rw [List.map_map, List.flatMap_def]
    rfl
  rw [ecsr] at k9
  have ki : ∀ x : Py RMesh, (if integ = true then (do
      integrityOf o l (countsOf l).no (countsOf l).fa (countsOf l).cv
      x) else x) = x := by
    intro x
    cases integ with
    | true => rw [if_pos rfl, (integrityOf_iff hs).2 (hi rfl)]; rfl
    | false => rfl
  rw [hcount] at k1 k2 k4 k5 k6 k7 ki
  have kc : connOf integ o l = .ok ⟨s10.h.int 0, s10.h.int 1, s10.h.int 2, s10.h.int 3,
      ⟨offsets 0 (faces.map fun a => (a.1.length : Int)), faces.flatMap fun a => a.1⟩, faces.map (·.2), bocos, np, icv, pts⟩ := by
    unfold connOf
    rw [show first cCounts l = some s10 from f10, show first cNoofa l = some s21 from f21,
      show first cCvofa l = some s22 from f22, show first cCvPart l = some s41 from f41, show first cXno l = some s31 from f31]
    simp only [show ∀ s : Sec, req (some s) = .ok s from fun _ => rfl, Except_bind_ok, Except_pure]
    simp only at k1 k2 k4 k5 ki
    rw [ki, k1, k2, k4, k5]
    simp only [Except_bind_ok]
    rw [show zonesRead _ (after cCvofa l) = .ok bocos from k3]
    rfl
  unfold readOf
  rw [kc, Except_bind_ok, k8, Except_bind_ok]
  simp only at k7
  rw [k7, Except_bind_ok]
  unfold exportMesh Mesh.setCoordsNd
  simp only at k6
  have hcl : pts.length = (Mesh.new (s10.h.int 2).toNat (s10.h.int 0).toNat : Mesh F64).nnode := k6
  simp only [hcl, k9, Except_bind_ok, pyAssert, decide_true, if_true, Except_pure]
  unfold Mesh.addFaces
  rw [if_pos (by simp [Mesh.faceKinds])]
  exact ⟨_, rfl⟩

theorem readOf_acceptable {o : Order} {ver : Int} {l : List Sec} {integ : Bool} {f : FullMesh} (hs : Sections ver l)
    (h : readOf integ o ver l = .ok f) : Acceptable o ver l ∧ (integ = true → Numbered o l) := by
  obtain ⟨faces, points, ht, h4, hlt, hlast⟩ := readOf_tells hs h
  unfold readOf at h
  obtain ⟨m, hm, h⟩ := bind_eq_ok.1 h
  obtain ⟨sim, _, h⟩ := bind_eq_ok.1 h
  obtain ⟨vars, hvars, _⟩ := bind_eq_ok.1 h
  obtain ⟨_, n1, n2, n3, n4, ⟨s21, f21, hno⟩, _, hzo, ⟨s41, f41, _⟩, _⟩ := connOf_inv hs hm
  obtain ⟨_, _, nno, a3, a4, _⟩ := noofaOf_inv hno ⟨hs.counts.2.1, hs.counts.2.2.2⟩
    (sized_first hs f21 (by intro h e; unfold room; rw [e]; rfl))
  rw [n1, n2, n3] at hvars
  obtain ⟨d1, d2⟩ := (varsOf_iff (o := o) (c := countsOf l) hs.sizes).1 ⟨vars, hvars⟩
  obtain ⟨_, z2⟩ := zones_tell hzo
  refine ⟨⟨⟨faces, ht.tables, h4, hlt, hlast⟩, ?_, by rw [f41]; rfl, ?_, d1, d2⟩, ?_⟩
  · obtain ⟨s, e1, e2, e3, _⟩ := ht.pointData.data
    exact ⟨s, e1, e2, e3⟩
  · intro s hm
    obtain ⟨e1, e2⟩ := z2 s hm
    have := npGet_iff.1 e2
    rw [a4, offsets_length, a3] at this
    have := hs.counts.2.1
    exact ⟨e1, by omega, by omega⟩
  · rintro rfl
    unfold connOf at hm
    obtain ⟨s10, f10, hm⟩ := bind_eq_ok.1 hm
    obtain ⟨_, hi, hm⟩ := bind_eq_ok.1 hm
    have hcount : countsOf l = ⟨s10.h.int 0, s10.h.int 1, s10.h.int 2, s10.h.int 3⟩ := by
      unfold countsOf; rw [show first 10 l = some s10 from req_ok f10]
    refine (integrityOf_iff hs).1 ?_
    rw [hcount]
    exact hi

end Cfd.Ic3
