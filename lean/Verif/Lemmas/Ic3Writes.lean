import Verif.Lemmas.Ic3Round
import Verif.Spec.Ic3Writes

/-! When the IC3 writers succeed. -/

namespace Cfd.Ic3
open Spec Spec.Ic3

/-- All the writes succeed. -/
def AllOk (cs : List (Py Bytes)) : Prop := ∀ c ∈ cs, ∃ b, c = .ok b

theorem AllOk.append {a b : List (Py Bytes)} (ha : AllOk a) (hb : AllOk b) : AllOk (a ++ b) := by
  intro c hc
  rcases List.mem_append.1 hc with h | h
  · exact ha c h
  · exact hb c h

theorem AllOk.nil : AllOk [] := by intro c hc; simp at hc

theorem AllOk.cons {c : Py Bytes} {cs : List (Py Bytes)} (h : ∃ b, c = .ok b) (hc : AllOk cs) : AllOk (c :: cs) := by
  intro x hx
  rcases List.mem_cons.1 hx with rfl | hx
  · exact h
  · exact hc x hx

theorem AllOk.flatMap {α : Type} {l : List α} {c : α → List (Py Bytes)} (h : ∀ x ∈ l, AllOk (c x)) :
    AllOk (l.flatMap c) := by
  intro x hx
  obtain ⟨y, hy, hx⟩ := List.mem_flatMap.1 hx
  exact h y hy x hx

theorem AllOk.map {α : Type} {l : List α} {c : α → Py Bytes} (h : ∀ x ∈ l, ∃ b, c x = .ok b) :
    AllOk (l.map c) := by
  intro x hx
  obtain ⟨y, hy, rfl⟩ := List.mem_map.1 hx
  exact h y hy

theorem runChunks_all {cs : List (Py Bytes)} (h : AllOk cs) : ∃ b, runChunks cs = (b, .ok ()) := by
  induction cs with
  | nil => exact ⟨[], rfl⟩
  | cons c t ih =>
    obtain ⟨b, rfl⟩ := h c (by simp)
    obtain ⟨r, hr⟩ := ih (fun x hx => h x (by simp [hx]))
    exact ⟨b ++ r, by simp [runChunks, hr]⟩

theorem fits8 {n : Int} (h1 : -(2 : Int) ^ 63 ≤ n) (h2 : n < 2 ^ 63) : FitsInt 8 n := by
  unfold FitsInt
  exact ⟨by simpa using h1, by simpa using h2⟩

theorem fits4 {n : Int} (h1 : -(2 : Int) ^ 31 ≤ n) (h2 : n < 2 ^ 31) : FitsInt 4 n := by
  unfold FitsInt
  exact ⟨by simpa using h1, by simpa using h2⟩

theorem fits8_nat {n : Nat} (h : n < 2 ^ 63) : FitsInt 8 (n : Int) := fits8 (by omega) (by omega)

section
variable (host : Order) (e : Endian)

theorem secHeader_of {name : String} {id : Int} {skip : Nat} {idata : List Int} {rdata : List F64}
    (hn : GoodName name) (hid : FitsInt 4 id) (hs : skip < 2 ^ 63) (hi : ∀ n ∈ idata, FitsInt 8 n) :
    ∃ b, secHeader host e name id skip idata rdata = .ok b := by
  refine ⟨_, (write_ok_iff _ _ _ _).2 ⟨⟨fun c hc => (hn.2 c (List.mem_of_mem_take hc)).1, hid, fits8_nat hs, ?_⟩, rfl⟩⟩
  intro n hn
  unfold mkHeader at hn
  simp only [List.mem_append, List.mem_replicate] at hn
  rcases hn with hn | ⟨_, rfl⟩
  · exact hi n hn
  · exact fits8 (by decide) (by decide)

theorem writeI32_of {n : Nat} {l : List Int} (h : l.length = n) (hl : ∀ x ∈ l, FitsInt 4 x) :
    ∃ b, writeI32 host e n l = .ok b := ⟨_, writeI32_ok.2 ⟨h, hl, rfl⟩⟩

theorem writeI64_of {n : Nat} {l : List Int} (h : l.length = n) (hl : ∀ x ∈ l, FitsInt 8 x) :
    ∃ b, writeI64 host e n l = .ok b := ⟨_, writeI64_ok.2 ⟨h, hl, rfl⟩⟩

theorem writeF64_of {n : Nat} {l : List F64} (h : l.length = n) :
    ∃ b, writeF64 host e n l = .ok b := ⟨_, writeF64_ok.2 ⟨h, rfl⟩⟩

theorem checkSection_of {name : String} {id : Int} {n : Nat} (hn : GoodName name) (hid : FitsInt 4 id) (h : Small n) :
    AllOk (checkSection host e name id n) := by
  unfold Small at h
  unfold checkSection
  refine .cons (secHeader_of host e hn hid (by simp only [hsize]; omega) ?_) (.cons (writeI32_of host e (by simp) ?_) .nil)
  · intro k hk
    simp only [List.mem_singleton] at hk
    subst hk
    exact fits8_nat (by omega)
  · intro x hx
    rw [mem_pyRange] at hx
    exact fits4 (by omega) (by omega)

theorem checkChunks_of (v : Ver) (w : WState) (h1 : Small w.nno) (h2 : Small w.nfa) (h3 : Small w.ncv) :
    AllOk (checkChunks host e v w) := by
  cases v with
  | v3 => exact .nil
  | v2 =>
    exact ((checkSection_of host e (by decide) (by decide) h1).append
      (checkSection_of host e (by decide) (by decide) h2)).append (checkSection_of host e (by decide) (by decide) h3)

/-- What makes the writes of the mesh succeed. -/
structure ConnFits (w : WState) : Prop where
  nno : Small w.nno
  nfa : Small w.nfa
  ncv : Small w.ncv
  noofaLen : w.noofa.length = w.nfa
  noofa : ∀ n ∈ w.noofa, FitsInt 4 n
  noofaVLen : w.noofaV.length < 2 ^ 40
  noofaV : ∀ n ∈ w.noofaV, FitsInt 4 n
  f2e : ∃ rows, w.f2e = some rows ∧ rows.length = w.nfa ∧ ∀ r ∈ rows, FitsInt 4 r.1 ∧ FitsInt 4 r.2
  coords : w.coords.length = w.nno
  marks : ∀ p ∈ w.bocos, GoodName p.1 ∧ p.1 = p.2.name ∧ p.2.onFaces = true ∧ p.2.type ∈ type2zonekind.keys ∧
    (p.2.perio.getD []).length ≤ 16 ∧ ∃ a b, p.2.index = .range a b ∧ FitsInt 8 a ∧ FitsInt 8 b ∧ b < w.nfa
  part : ∃ p, w.part = some p ∧ FitsInt 8 (p.npart.getD 1) ∧
    (p.icvpart = .missing ∨ ∃ l, p.icvpart = .arr l ∧ l.length = w.ncv ∧ ∀ n ∈ l, FitsInt 4 n)

theorem zoneChunk_of {p : String × Mark} (hg : GoodName p.1) (h1 : p.1 = p.2.name) (h2 : p.2.onFaces = true)
    (h3 : p.2.type ∈ type2zonekind.keys) (h4 : (p.2.perio.getD []).length ≤ 16) {a b : Int}
    (h5 : p.2.index = .range a b) (ha : FitsInt 8 a) (hb : FitsInt 8 b) : ∃ x, zoneChunk host e p = .ok x := by
  obtain ⟨k, hk⟩ := Dict.mem_keys_iff.1 h3
  have hk8 : FitsInt 8 k := by
    have := Dict.mem_of_get? hk
    have hall : ∀ q ∈ type2zonekind, FitsInt 8 q.2 := by decide
    exact hall _ this
  obtain ⟨x, hx⟩ := secHeader_of host e (name := p.1) (id := cFaZone) (skip := hsize) (idata := [k, a, b])
    (rdata := p.2.perio.getD []) hg (by decide) (by decide) (by
      intro n hn
      simp only [List.mem_cons, List.not_mem_nil, or_false] at hn
      rcases hn with rfl | rfl | rfl
      · exact hk8
      · exact ha
      · exact hb)
  refine ⟨x, ?_⟩
  unfold zoneChunk
  rw [decide_eq_true h1, h2, decide_eq_true h3, h5]
  simp only [pyAssert, if_true, Except_bind_ok, IndexList.getRange, Dict.getE, hk]
  rw [if_neg (by omega)]
  exact hx

theorem lastBoco_lt {bocos : Dict String Mark} {n : Nat} (hn : Small n) (h : ∀ p ∈ bocos, ∃ a b, p.2.index = .range a b ∧ b < n) :
    0 ≤ lastBoco bocos ∧ lastBoco bocos < 2 ^ 31 := by
  unfold lastBoco
  have : ∀ (l : Dict String Mark) (acc : Int), 0 ≤ acc → acc < 2 ^ 31 → (∀ p ∈ l, ∃ a b, p.2.index = .range a b ∧ b < n) →
      0 ≤ l.foldl (fun a p => match p.2.index.getRange with | .ok r => max a r.2 | .error _ => a) acc ∧
      l.foldl (fun a p => match p.2.index.getRange with | .ok r => max a r.2 | .error _ => a) acc < 2 ^ 31 := by
    intro l
    induction l with
    | nil => intro acc h1 h2 _; exact ⟨h1, h2⟩
    | cons p t ih =>
      intro acc h1 h2 h3
      obtain ⟨a, b, hi, hb⟩ := h3 p (by simp)
      rw [List.foldl_cons, hi]
      unfold Small at hn
      refine ih _ ?_ ?_ (fun q hq => h3 q (by simp [hq]))
      · exact le_trans h1 (le_max_left _ _)
      · exact max_lt h2 (by omega)
  exact this bocos 0 (by decide) (by decide) h

theorem connChunks_of (v : Ver) (w : WState) (h : ConnFits w) : AllOk (connChunks host e v w) := by
  have n1 := h.nno; have n2 := h.nfa; have n3 := h.ncv; have n4 := h.noofaVLen
  have hb := lastBoco_lt h.nfa (bocos := w.bocos) (fun p hp => by
    obtain ⟨_, _, _, _, _, a, b, h1, _, _, h2⟩ := h.marks p hp
    exact ⟨a, b, h1, h2⟩)
  unfold Small at n1 n2 n3
  unfold connChunks
  refine ((((AllOk.append (.append ?_ (checkChunks_of host e v w h.nno h.nfa h.ncv)) ?_).append ?_).append ?_).append ?_).append ?_
  · refine .cons (secHeader_of host e (by decide) (by decide) (by decide) ?_) .nil
    intro n hn
    simp only [List.mem_cons, List.not_mem_nil, or_false] at hn
    rcases hn with rfl | rfl | rfl | rfl <;> exact fits8_nat (by omega)
  · refine .cons (secHeader_of host e (by decide) (by decide) (by simp only [hsize]; omega) ?_)
      (.cons (writeI32_of host e h.noofaLen h.noofa) (.cons (writeI32_of host e rfl h.noofaV)
        (.cons (secHeader_of host e (by decide) (by decide) (by simp only [hsize]; omega) ?_) (.cons ?_ .nil))))
    · intro n hn
      simp only [List.mem_cons, List.not_mem_nil, or_false] at hn
      rcases hn with rfl | rfl <;> exact fits8_nat (by omega)
    · intro n hn
      simp only [List.mem_cons, List.not_mem_nil, or_false] at hn
      rcases hn with rfl | rfl
      · exact fits8_nat (by omega)
      · exact fits8 (by decide) (by decide)
    · obtain ⟨rows, hr, hl, hf⟩ := h.f2e
      rw [hr]
      refine writeI32_of host e ?_ ?_
      · rw [← hl]
        clear hr hl hf
        induction rows with
        | nil => rfl
        | cons a t ih => simp only [List.flatMap_cons, List.length_append, ih, List.length_cons, List.length_nil]; omega
      · intro x hx
        obtain ⟨r, hr, hx⟩ := List.mem_flatMap.1 hx
        simp only [List.mem_cons, List.not_mem_nil, or_false] at hx
        rcases hx with rfl | rfl
        · exact (hf r hr).1
        · exact (hf r hr).2
  · exact .map fun p hp => by
      obtain ⟨h1, h2, h3, h4, h5, a, b, h6, h7, h8, _⟩ := h.marks p hp
      exact zoneChunk_of host e h1 h2 h3 h4 h5 h6 h7 h8
  · refine .cons (secHeader_of host e (by decide) (by decide) (by decide) ?_) .nil
    intro n hn
    simp only [List.mem_cons, List.not_mem_nil, or_false] at hn
    rcases hn with rfl | rfl | rfl <;> exact fits8 (by omega) (by omega)
  · obtain ⟨p, hp, h1, h2⟩ := h.part
    unfold partChunks
    rw [hp]
    refine .cons (secHeader_of host e (by decide) (by decide) (by simp only [hsize]; omega) ?_) (.cons ?_ .nil)
    · intro n hn
      simp only [List.mem_cons, List.not_mem_nil, or_false] at hn
      rcases hn with rfl | rfl
      · exact fits8_nat (by omega)
      · exact h1
    · rcases h2 with h2 | ⟨l, h2, h3, h4⟩
      · rw [h2]
        refine writeI32_of host e (by simp) ?_
        intro x hx
        rw [List.eq_of_mem_replicate hx]
        exact fits4 (by decide) (by decide)
      · rw [h2]
        exact writeI32_of host e h3 h4
  · refine .cons (secHeader_of host e (by decide) (by decide) (by simp only [hsize]; omega) ?_)
      (.cons (writeF64_of host e ?_) .nil)
    · intro n hn
      simp only [List.mem_cons, List.not_mem_nil, or_false] at hn
      rcases hn with rfl | rfl
      · exact fits8_nat (by omega)
      · exact fits8 (by decide) (by decide)
    · rw [← h.coords]
      generalize w.coords = l
      induction l with
      | nil => rfl
      | cons a t ih => simp only [List.flatMap_cons, List.length_append, ih, List.length_cons, List.length_nil]; omega

/-- What makes the writes of the parameters succeed. -/
structure SimFits (cv : Conv) (s : SimState) : Prop where
  step : ∃ n, simInt cv s.step = .ok n ∧ FitsInt 8 n
  dt : ∃ x, simF64 cv s.dt = .ok x
  time : ∃ x, simF64 cv s.time = .ok x
  wgt : ∃ d, s.wgt = .wgts d ∧ ∀ p ∈ d, GoodName (p.1.toUpper ++ "_WGT")

theorem infoChunks_of (cv : Conv) (s : SimState) (h : SimFits cv s) : AllOk (infoChunks host e cv s) := by
  have none8 : ∀ n ∈ ([] : List Int), FitsInt 8 n := by intro n hn; simp at hn
  obtain ⟨n, h1, h2⟩ := h.step
  obtain ⟨x, h3⟩ := h.dt
  obtain ⟨y, h4⟩ := h.time
  obtain ⟨d, h5, h6⟩ := h.wgt
  unfold infoChunks
  refine .append (.cons (secHeader_of host e (by decide) (by decide) (by decide) none8)
    (.cons ?_ (.cons ?_ (.cons ?_ .nil)))) ?_
  · unfold stepChunk
    rw [h1, Except_bind_ok]
    refine secHeader_of host e (by decide) (by decide) (by decide) ?_
    intro k hk
    simp only [List.mem_singleton] at hk
    subst hk
    exact h2
  · unfold realChunk
    rw [h3, Except_bind_ok]
    exact secHeader_of host e (by decide) (by decide) (by decide) none8
  · unfold realChunk
    rw [h4, Except_bind_ok]
    exact secHeader_of host e (by decide) (by decide) (by decide) none8
  · rw [h5]
    exact .map fun p hp => secHeader_of host e (h6 p hp) (by decide) (by decide) none8

theorem whenScalar_of {a : NpArr} {n : Nat} (hg : GoodArr n a) {cs : List (Py Bytes)}
    (h : a.shape.length = 1 ∨ n = 0 → a.size = n → AllOk cs) : AllOk (whenScalar a cs) := by
  unfold whenScalar NpArr.isScalar
  obtain ⟨h1, h2⟩ := hg
  rcases h1 with h1 | h1 | h1
  · rw [h1] at h2 ⊢
    simp only [List.prod_cons, List.prod_nil, Nat.mul_one] at h2
    dsimp only
    rw [decide_eq_true h2]
    exact h (.inl (by rw [h1]; rfl)) h2
  · rw [h1] at h2 ⊢
    simp only [List.prod_cons, List.prod_nil, Nat.mul_one] at h2
    dsimp only
    by_cases hs : a.size = n
    · rw [decide_eq_true hs]
      exact h (.inr (by omega)) hs
    · rw [decide_eq_false hs]
      exact .nil
  · rw [h1] at h2 ⊢
    simp only [List.prod_cons, List.prod_nil, Nat.mul_one] at h2
    dsimp only
    by_cases hs : a.size = n
    · rw [decide_eq_true hs]
      exact h (.inr (by omega)) hs
    · rw [decide_eq_false hs]
      exact .nil

theorem length_doubles (cv : Conv) (a : NpArr) : (a.doubles cv).length = a.size := by
  unfold NpArr.doubles NpArr.size
  cases a.data <;> simp

theorem scalarV2_of (cv : Conv) (id : Int) (n : Nat) (p : String × NpArr) (hid : FitsInt 4 id) (hn : n < 2 ^ 52)
    (hg : GoodName p.1) (ha : GoodArr n p.2) : AllOk (scalarV2 host e cv id n p) := by
  unfold scalarV2
  refine whenScalar_of ha fun _ hs => .cons (secHeader_of host e hg hid (by simp only [hsize]; omega) ?_)
    (.cons (writeF64_of host e (by rw [length_doubles, hs])) .nil)
  intro k hk
  simp only [List.mem_singleton] at hk
  subst hk
  exact fits8_nat (by omega)

theorem size_vector {n : Nat} {a : NpArr} (ha : GoodArr n a) (h : a.shape.length = 2) : a.size = n * 3 := by
  obtain ⟨h1, h2⟩ := ha
  rcases h1 with h1 | h1 | h1 <;> rw [h1] at h h2 <;> simp at h h2
  exact h2

theorem size_tensor {n : Nat} {a : NpArr} (ha : GoodArr n a) (h : a.shape.length = 3) : a.size = n * 9 := by
  obtain ⟨h1, h2⟩ := ha
  rcases h1 with h1 | h1 | h1 <;> rw [h1] at h h2 <;> simp at h h2
  omega

theorem vectorV2_of (cv : Conv) (id : Int) (n : Nat) (p : String × NpArr) (hid : FitsInt 4 id) (hn : n < 2 ^ 52)
    (hg : GoodName p.1) (ha : GoodArr n p.2) : AllOk (vectorV2 host e cv id n p) := by
  unfold vectorV2
  split
  · rename_i h
    refine .cons (secHeader_of host e hg hid (by simp only [hsize]; omega) ?_)
      (.cons (writeF64_of host e (by rw [length_doubles, size_vector ha h])) .nil)
    intro k hk
    simp only [List.mem_cons, List.not_mem_nil, or_false] at hk
    rcases hk with rfl | rfl
    · exact fits8_nat (by omega)
    · exact fits8 (by decide) (by decide)
  · exact .nil

theorem tensorV2_of (cv : Conv) (n : Nat) (p : String × NpArr) (hn : n < 2 ^ 52)
    (hg : GoodName p.1) (ha : GoodArr n p.2) : AllOk (tensorV2 host e cv n p) := by
  unfold tensorV2
  split
  · rename_i h
    refine .cons (secHeader_of host e hg (by decide) (by simp only [hsize]; omega) ?_)
      (.cons (writeF64_of host e (by rw [length_doubles, size_tensor ha h])) .nil)
    intro k hk
    simp only [List.mem_cons, List.not_mem_nil, or_false] at hk
    rcases hk with rfl | rfl | rfl
    · exact fits8_nat (by omega)
    · exact fits8 (by decide) (by decide)
    · exact fits8 (by decide) (by decide)
  · exact .nil

theorem scalarV3_of (idF idI : Int) (n : Nat) (idata : List Int) (p : String × NpArr) (h1 : FitsInt 4 idF)
    (h2 : FitsInt 4 idI) (hn : n < 2 ^ 52) (hi : ∀ k ∈ idata, FitsInt 8 k) (hg : GoodName p.1)
    (ha : GoodArr n p.2) (hf : ScalarFits .v3 p.2) (h0 : n = 0 → p.2.shape.length = 1) :
    AllOk (scalarV3 host e idF idI n idata p) := by
  unfold scalarV3
  refine whenScalar_of ha fun hl hs => ?_
  have hl : p.2.shape.length = 1 := hl.elim id h0
  have hf := hf rfl hl
  unfold NpArr.size at hs
  cases hd : p.2.data with
  | f64 l =>
    rw [hd] at hs
    exact .cons (secHeader_of host e hg h1 (by simp only [hsize]; omega) hi) (.cons (writeF64_of host e hs) .nil)
  | i64 l =>
    rw [hd] at hs hf
    exact .cons (secHeader_of host e hg h2 (by simp only [hsize]; omega) hi) (.cons (writeI64_of host e hs hf) .nil)
  | other l =>
    rw [hd] at hf
    exact absurd hf (by simp)

theorem vectorV3_of (cv : Conv) (n : Nat) (idata : List Int) (p : String × NpArr) (hn : n < 2 ^ 52)
    (hi : ∀ k ∈ idata, FitsInt 8 k) (hg : GoodName p.1) (ha : GoodArr n p.2) : AllOk (vectorV3 host e cv n idata p) := by
  unfold vectorV3
  split
  · rename_i h
    exact .cons (secHeader_of host e hg (by decide) (by simp only [hsize]; omega) hi)
      (.cons (writeF64_of host e (by rw [length_doubles, size_vector ha h])) .nil)
  · exact .nil

theorem tensorV3_of (cv : Conv) (n : Nat) (idata : List Int) (p : String × NpArr) (hn : n < 2 ^ 52)
    (hi : ∀ k ∈ idata, FitsInt 8 k) (hg : GoodName p.1) (ha : GoodArr n p.2) : AllOk (tensorV3 host e cv n idata p) := by
  unfold tensorV3
  split
  · rename_i h
    refine .cons (secHeader_of host e hg (by decide) (by simp only [hsize]; omega) ?_)
      (.cons (writeF64_of host e (by rw [length_doubles, size_tensor ha h])) .nil)
    intro k hk
    rcases List.mem_append.1 hk with hk | hk
    · exact hi k hk
    · simp only [List.mem_singleton] at hk
      subst hk
      exact fits8 (by decide) (by decide)
  · exact .nil

theorem varChunks_of (v : Ver) (cv : Conv) (w : WState) (h1 : Small w.nno) (h2 : Small w.ncv)
    (hn : ∀ p ∈ w.nodes, GoodName p.1 ∧ GoodArr w.nno p.2 ∧ ScalarFits v p.2)
    (hc : ∀ p ∈ w.cells.data, GoodName p.1 ∧ GoodArr (dofOf v w.cells * w.ncv).toNat p.2 ∧ ScalarFits v p.2)
    (hn0 : w.nodes ≠ [] → 0 < w.nno) (hc0 : w.cells.data ≠ [] → 0 < w.ncv ∧ 1 ≤ dofOf v w.cells)
    (ha : v = .v3 → w.cells.data ≠ [] → ∃ a, w.cells.attrs = some a ∧ 0 ≤ a.ndof ∧ a.ndof < 2 ^ 20) :
    AllOk (varChunks host e v cv w) := by
  unfold Small at h1 h2
  cases v with
  | v2 =>
    have e1 : (dofOf .v2 w.cells * w.ncv).toNat = w.ncv := by simp [dofOf]
    rw [e1] at hc
    refine ((((AllOk.flatMap ?_).append (.flatMap ?_)).append (.flatMap ?_)).append (.flatMap ?_)).append (.flatMap ?_)
    · exact fun p hp => scalarV2_of host e cv _ _ p (by decide) (by omega) (hn p hp).1 (hn p hp).2.1
    · exact fun p hp => vectorV2_of host e cv _ _ p (by decide) (by omega) (hn p hp).1 (hn p hp).2.1
    · exact fun p hp => scalarV2_of host e cv _ _ p (by decide) (by omega) (hc p hp).1 (hc p hp).2.1
    · exact fun p hp => vectorV2_of host e cv _ _ p (by decide) (by omega) (hc p hp).1 (hc p hp).2.1
    · exact fun p hp => tensorV2_of host e cv _ p (by omega) (hc p hp).1 (hc p hp).2.1
  | v3 =>
    refine ((AllOk.flatMap ?_).append (.flatMap ?_)).append ?_
    · intro p hp
      have := hn0 (List.ne_nil_of_mem hp)
      refine scalarV3_of host e _ _ _ _ p (by decide) (by decide) (by omega) ?_ (hn p hp).1 (hn p hp).2.1
        (hn p hp).2.2 (by omega)
      intro k hk
      simp only [List.mem_singleton] at hk
      subst hk
      exact fits8_nat (by omega)
    · exact fun p hp => vectorV2_of host e cv _ _ p (by decide) (by omega) (hn p hp).1 (hn p hp).2.1
    · unfold cellChunksV3
      by_cases hd : w.cells.data = []
      · rw [hd]
        cases w.cells.attrs with
        | none => exact .nil
        | some a => exact .nil
      · obtain ⟨a, ha, a0, a1⟩ := ha rfl hd
        rw [ha]
        have e1 : dofOf .v3 w.cells = a.ndof := by simp [dofOf, ha]
        rw [e1] at hc hc0
        obtain ⟨c0, c1⟩ := hc0 hd
        have hlt : (a.ndof * w.ncv).toNat < 2 ^ 52 := by
          have : a.ndof * w.ncv ≤ 2 ^ 20 * 2 ^ 31 := Int.mul_le_mul (by omega) (by omega) (by omega) (by decide)
          omega
        have hpos : 0 < (a.ndof * w.ncv).toNat := by
          have : 0 < a.ndof * (w.ncv : Int) := Int.mul_pos (by omega) (by omega)
          omega
        have hi : ∀ k ∈ [(w.ncv : Int), a.ndof], FitsInt 8 k := by
          intro k hk
          simp only [List.mem_cons, List.not_mem_nil, or_false] at hk
          rcases hk with rfl | rfl
          · exact fits8_nat (by omega)
          · exact fits8 (by omega) (by omega)
        refine ((AllOk.flatMap ?_).append (.flatMap ?_)).append (.flatMap ?_)
        · exact fun p hp => scalarV3_of host e _ _ _ _ p (by decide) (by decide) hlt hi (hc p hp).1 (hc p hp).2.1
            (hc p hp).2.2 (by omega)
        · exact fun p hp => vectorV3_of host e cv _ _ p hlt hi (hc p hp).1 (hc p hp).2.1
        · exact fun p hp => tensorV3_of host e cv _ _ p hlt hi (hc p hp).1 (hc p hp).2.1

end

/-- `set_mesh` succeeds when the faces can be exported. -/
theorem setMesh_of {f : FullMesh} {m : Mesh F64} {l : List Face} (hs : Storable m l)
    (hxyz : ∃ x y z, m.coords = some (x, y, z))
    (hx : m.faces.get? "mixed" = none → ∃ r, m.exportMixed = .ok r) : ∃ w, setMesh f m = .ok w := by
  obtain ⟨x, y, z, hc⟩ := hxyz
  obtain ⟨c1, c2, c3⟩ := hs.coords x y z hc
  have hf : ∃ zf, writerFaces m = .ok zf := by
    unfold writerFaces
    rcases hs.faces with ⟨fs, h1, h2⟩ | ⟨h0, b, i, lb, li, hb, hi, wb, wi, rfl⟩
    · rw [h1]
      simp only [h2.export, h2.cells, Mesh.f2cConn, Except_bind_ok, Except_pure]
      exact ⟨_, rfl⟩
    · rw [h0]
      obtain ⟨⟨c, rows⟩, hr⟩ := hx h0
      have ha := C14_mixed_aligned_returned m b i _ _ rows c hb hi wb.wf wi.wf hr
      obtain ⟨z, hz, _⟩ := C06_export_slices c ha.conn ha.numbering
      simp only [hr, Except_bind_ok, hz, Except_pure]
      exact ⟨_, rfl⟩
  obtain ⟨zf, hzf⟩ := hf
  unfold setMesh
  rw [hc]
  have hlen : (stackCoords (x, y, z)).length = m.nnode := by
    simp [stackCoords, c1, c2, c3]
  simp only [hlen, decide_true, pyAssert, if_true, Except_bind_ok, hzf, Except_pure]
  exact ⟨_, rfl⟩

theorem length_flatten_le {l : List Face} (h : ∀ f ∈ l, 1 ≤ f.1.length ∧ f.1.length ≤ 4) :
    ((l.map (·.1)).flatten).length ≤ 4 * l.length := by
  induction l with
  | nil => simp
  | cons a t ih =>
    have := ih (fun f hf => h f (by simp [hf]))
    have := h a (by simp)
    simp only [List.map_cons, List.flatten_cons, List.length_append, List.length_cons]
    omega

theorem writeIc3_of {tbl : FaceTable} {so : List Int → List Int} (host : Order) (e : Endian) {v : Ver} {cv : Conv}
    {f : FullMesh} {m : Mesh F64} {l : List Face} (hc : completeMesh tbl so f.mesh = .ok m) (hs : Storable m l)
    (hd : DataStorable v f m) (hn : NamesFit f) (mf : MeshFits m l) (df : DataFits v cv f m.ncell)
    (hx : m.faces.get? "mixed" = none → ∃ r, m.exportMixed = .ok r) :
    ∃ b, writeIc3 tbl so host e v cv f = (some b, .ok ()) := by
  obtain ⟨w, hw⟩ := setMesh_of (f := f) hs mf.coords hx
  have hno := namesOK_of_fit hn hc hw
  obtain ⟨k1, k2, k3, k4, k5, k6⟩ := setMesh_faces hw hs.faces
  obtain ⟨c, zf, j1, j2, j3, j4⟩ := setMesh_ok hw
  have hbm : ∀ p ∈ w.bocos, p ∈ m.bocos ∧ p.2.type ≠ "internal" := by
    intro p hp
    rw [j4] at hp
    have := List.mem_filter.1 hp
    simpa using this
  have hcoords : w.coords.length = w.nno := by rw [j4]; exact j2
  have hpart : w.part = match f.partition with
      | none => some ⟨some 1, .arr (List.replicate m.ncell 0)⟩
      | some p => p := by
    rw [j4]
    cases f.partition <;> rfl
  have hsim : w.sim = setSimstate f.params := by rw [j4]
  have hcells : w.cells = f.cells := by rw [j4]
  have hnodes : w.nodes = f.nodes := by rw [j4]
  obtain ⟨s1, s2, s3⟩ := mf.counts
  have hcount := mf.count
  have h31 : l.length < 2 ^ 31 := by rw [← hcount]; exact s3
  have cf : ConnFits w := by
    refine ⟨by rw [k4]; exact s1, by rw [k5]; exact s3, by rw [k6]; exact s2, ?_, ?_, ?_, ?_, ?_, hcoords, ?_, ?_⟩
    · rw [k1, k5, hcount]; simp
    · rw [k1]
      intro n hn
      obtain ⟨x, hx, rfl⟩ := List.mem_map.1 hn
      have := hs.nodesPerFace x hx
      exact fits4 (by omega) (by omega)
    · rw [k2]
      have := length_flatten_le hs.nodesPerFace
      omega
    · rw [k2]
      intro n hn
      obtain ⟨x, hx, hn⟩ := List.mem_flatten.1 hn
      obtain ⟨y, hy, rfl⟩ := List.mem_map.1 hx
      exact (mf.numbers y hy).1 n hn
    · refine ⟨_, k3, by rw [k5, hcount]; simp, ?_⟩
      intro r hr
      obtain ⟨y, hy, rfl⟩ := List.mem_map.1 hr
      exact (mf.numbers y hy).2
    · intro p hp
      obtain ⟨p1, p2⟩ := hbm p hp
      obtain ⟨q1, q2, q3, q4, q5⟩ := mf.marks p p1 p2
      obtain ⟨a, b, r1, r2, r3, r4⟩ := hs.markRanges p p1 p2
      refine ⟨(hno.marks p hp).1, q1.symm, q2, q3, q4, a, b, r1, fits8 (by omega) (by omega), q5 a b r1, ?_⟩
      rw [k5, hcount]; exact r4
    · rcases df.part with hp | ⟨p, hp, h1, h2⟩
      · rw [hp] at hpart
        refine ⟨_, hpart, fits8 (n := 1) (by decide) (by decide), .inr ⟨_, rfl, by rw [k6]; simp, ?_⟩⟩
        intro n hn
        rw [List.eq_of_mem_replicate hn]
        exact fits4 (by decide) (by decide)
      · rw [hp] at hpart
        rw [k6]
        exact ⟨p, hpart, h1, h2⟩
  have sf : SimFits cv w.sim := by
    rw [hsim]
    refine ⟨?_, ?_, ?_, ?_⟩
    · unfold setSimstate
      cases hg : f.params.get? "step" with
      | none => exact ⟨0, rfl, fits8 (by decide) (by decide)⟩
      | some s =>
        have hs := df.step s hg
        cases s with
        | int n => exact ⟨n, rfl, hs⟩
        | f64 x => exact hs
        | wgts d => exact hs.elim
    · unfold setSimstate
      cases hg : f.params.get? "dt" with
      | none => exact ⟨_, rfl⟩
      | some s =>
        cases s with
        | int n => exact ⟨_, rfl⟩
        | f64 x => exact ⟨_, rfl⟩
        | wgts d => exact absurd rfl (df.dt _ hg d)
    · unfold setSimstate
      cases hg : f.params.get? "time" with
      | none => exact ⟨_, rfl⟩
      | some s =>
        cases s with
        | int n => exact ⟨_, rfl⟩
        | f64 x => exact ⟨_, rfl⟩
        | wgts d => exact absurd rfl (df.time _ hg d)
    · have hww := hno.weights
      rw [hsim] at hww
      unfold setSimstate at hww ⊢
      cases hg : f.params.get? "wgt" with
      | none => exact ⟨[], rfl, by intro p hp; simp at hp⟩
      | some s =>
        obtain ⟨d, rfl⟩ := df.wgt s hg
        rw [hg] at hww
        exact ⟨d, rfl, fun p hp => (hww p hp).1⟩
  have hvar : AllOk (varChunks host e v cv w) := by
    refine varChunks_of host e v cv w (by rw [k4]; exact s1) (by rw [k6]; exact s2) ?_ ?_ ?_ ?_ ?_
    · intro p hp
      refine ⟨(hno.nodes p hp).1, ?_⟩
      rw [hnodes] at hp
      rw [k4]
      exact ⟨hd.nodes p hp, df.nodes p hp⟩
    · intro p hp
      refine ⟨(hno.cells p hp).1, ?_⟩
      rw [hcells] at hp ⊢
      rw [k6]
      exact ⟨hd.cells p hp, df.cells p hp⟩
    · rw [hnodes, k4]; exact hd.someNode
    · rw [hcells, k6]
      intro h
      have := hd.someCell h
      exact ⟨this.1, this.2.1⟩
    · rw [hcells]; exact df.attrs
  have hall : AllOk (fileChunks host e v cv w) := by
    refine .append (.append (.append (.append (.cons ⟨_, headerChunk_eq host e v⟩ .nil) (connChunks_of host e v w cf))
      (infoChunks_of host e cv _ sf)) hvar) (.cons ⟨_, (eof_ok host e).1⟩ .nil)
  obtain ⟨b, hb⟩ := runChunks_all hall
  refine ⟨b, ?_⟩
  unfold writeIc3
  simp only [hc, Except_bind_ok, hw, hb]

end Cfd.Ic3
