import Verif.Spec.Ic3Writes
import Verif.Lemmas.Ic3Read
import Verif.Lemmas.Ic3Round
import Verif.Model.Ic3Reader

/-! What the reader guarantees for any accepted file (for C67). -/

namespace Cfd.Ic3
open Cfd.Spec Cfd.Spec.Ic3

/-! ### Numbers and names read -/

theorem groups_length_of {k n : Nat} {b : Bytes} (h : k * n ≤ b.length) : ∀ g ∈ groups k n b, g.length = k := by
  induction n generalizing b with
  | zero => simp [groups]
  | succ n ih =>
    rw [Nat.mul_succ] at h
    intro g hg
    simp only [groups, List.mem_cons] at hg
    rcases hg with rfl | hg
    · rw [List.length_take]; omega
    · exact ih (by rw [List.length_drop]; omega) g hg

theorem groups_count (k n : Nat) (b : Bytes) : (groups k n b).length = n := by
  induction n generalizing b with
  | zero => rfl
  | succ n ih => simp [groups, ih]

theorem unpackInts_fit {o : Order} {k n : Nat} {b : Bytes} (hk : 0 < k) (h : k * n ≤ b.length) :
    (unpackInts o k n b).length = n ∧ ∀ x ∈ unpackInts o k n b, FitsInt k x := by
  refine ⟨by unfold unpackInts; rw [List.length_map, groups_count], ?_⟩
  intro x hx
  obtain ⟨g, hg, rfl⟩ := List.mem_map.1 hx
  have := groups_length_of h g hg
  have h2 := unpackInt_fits o g (by omega)
  rw [this] at h2
  exact h2

theorem readAt_size {file b : Bytes} {p n : Nat} (h : readAt file p n = some b) : b.length = n := by
  unfold readAt at h
  simp only at h
  split at h
  · rename_i hl
    simp only [Option.some.injEq] at h
    rw [← h]; exact hl
  · simp at h

theorem readI32_fit {file : Bytes} {o : Order} {p : Nat} {n : Int} {l : List Int}
    (h : readI32 file o p n = .ok (some l)) : 0 ≤ n ∧ l.length = n.toNat ∧ ∀ x ∈ l, FitsInt 4 x := by
  unfold readI32 at h
  obtain ⟨k, hk, h⟩ := bind_eq_ok.1 h
  unfold formatCount at hk
  split at hk
  · exact absurd hk (by simp)
  · simp only [Except.ok.injEq] at hk
    subst hk
    simp only [Except_pure, Except.ok.injEq, Option.map_eq_some_iff] at h
    obtain ⟨b, hb, rfl⟩ := h
    have := readAt_size hb
    have := unpackInts_fit (o := o) (k := 4) (n := n.toNat) (b := b) (by decide) (by omega)
    exact ⟨by omega, this⟩

theorem readI64_fit {file : Bytes} {o : Order} {p : Nat} {n : Int} {l : List Int}
    (h : readI64 file o p n = .ok (some l)) : 0 ≤ n ∧ l.length = n.toNat ∧ ∀ x ∈ l, FitsInt 8 x := by
  unfold readI64 at h
  obtain ⟨k, hk, h⟩ := bind_eq_ok.1 h
  unfold formatCount at hk
  split at hk
  · exact absurd hk (by simp)
  · simp only [Except.ok.injEq] at hk
    subst hk
    simp only [Except_pure, Except.ok.injEq, Option.map_eq_some_iff] at h
    obtain ⟨b, hb, rfl⟩ := h
    have := readAt_size hb
    have := unpackInts_fit (o := o) (k := 8) (n := n.toNat) (b := b) (by decide) (by omega)
    exact ⟨by omega, this⟩

theorem readF64_count {file : Bytes} {o : Order} {p : Nat} {n : Int} {r : Option (List F64)}
    (h : readF64 file o p n = .ok r) : 0 ≤ n ∧ (∀ l, r = some l → l.length = n.toNat) ∧
      (r = none → file.length < p + 8 * n.toNat) := by
  unfold readF64 at h
  obtain ⟨k, hk, h⟩ := bind_eq_ok.1 h
  unfold formatCount at hk
  split at hk
  · exact absurd hk (by simp)
  · simp only [Except.ok.injEq] at hk
    subst hk
    simp only [Except_pure, Except.ok.injEq] at h
    subst h
    refine ⟨by omega, ?_, ?_⟩
    · intro l hl
      obtain ⟨b, _, rfl⟩ := Option.map_eq_some_iff.1 hl
      unfold unpackF64s
      rw [List.length_map, groups_count]
    · intro hn
      rw [Option.map_eq_none_iff] at hn
      unfold readAt at hn
      simp only at hn
      split at hn
      · simp at hn
      · rename_i hl
        simp only [List.length_take, List.length_drop] at hl
        omega

theorem readName_good : ∀ (b : Bytes) (l : List Char), readName b = .ok l →
    l.length ≤ b.length ∧ ∀ c ∈ l, c.toNat < 128 ∧ c ≠ '\x00'
  | [], l, h => by
    simp only [readName, Except.ok.injEq] at h
    subst h; simp
  | x :: t, l, h => by
    unfold readName at h
    split at h
    · simp only [Except.ok.injEq] at h
      subst h; simp
    · rename_i hx
      split at h
      · rename_i h128
        obtain ⟨r, hr, h⟩ := bind_eq_ok.1 h
        simp only [Except_pure, Except.ok.injEq] at h
        subst h
        obtain ⟨h1, h2⟩ := readName_good t r hr
        refine ⟨by simp only [List.length_cons]; omega, ?_⟩
        intro c hc
        rcases List.mem_cons.1 hc with rfl | hc
        · have hv : (Char.ofNat x.toNat).toNat = x.toNat := by
            have : x.toNat.isValidChar := Or.inl (by omega)
            simp [Char.ofNat, this, Char.ofNatAux, Char.toNat]
          refine ⟨by omega, ?_⟩
          intro e
          have : x.toNat = 0 := by rw [← hv, e]; rfl
          exact hx (UInt8.toNat_inj.1 this)
        · exact h2 c hc
      · simp at h

/-- A header that the reader can return. -/
structure ReadHeader (h : Header) : Prop where
  name : UserName h.name
  ints : h.idata.length = 8 ∧ ∀ n ∈ h.idata, FitsInt 8 n
  reals : h.rdata.length = 16

theorem ReadHeader.int {h : Header} (hh : ReadHeader h) (k : Nat) : FitsInt 8 (h.int k) := by
  unfold Header.int
  by_cases hk : k < h.idata.length
  · rw [List.getD_eq_getElem?_getD, List.getElem?_eq_getElem hk]
    exact hh.ints.2 _ (List.getElem_mem hk)
  · rw [List.getD_eq_getElem?_getD, List.getElem?_eq_none (by omega)]
    decide

theorem parseHeader_read {o : Order} {b : Bytes} {h : Header} (hb : b.length = hsize) (hp : parseHeader o b = .ok h)
    (hd : endName h.name = false) : ReadHeader h := by
  unfold parseHeader at hp
  obtain ⟨l, hl, hp⟩ := bind_eq_ok.1 hp
  simp only [Except_pure, Except.ok.injEq] at hp
  subst hp
  obtain ⟨h1, h2⟩ := readName_good _ _ hl
  rw [List.length_take] at h1
  refine ⟨⟨⟨?_, ?_⟩, hd⟩, ?_, ?_⟩
  · rw [String.toList_ofList]; omega
  · rw [String.toList_ofList]; exact h2
  · exact unpackInts_fit (by decide) (by rw [List.length_drop, hb]; decide)
  · unfold unpackF64s
    rw [List.length_map, groups_count]

theorem scan_found_read {file : Bytes} {o : Order} {ids : List Int} {pos : Nat} {h : Header} {p : Nat}
    (hs : scan file o ids pos = .ok (.found h p)) : ReadHeader h ∧ h.id ∈ ids := by
  fun_induction scan file o ids pos with
  | case1 => simp at hs
  | case2 => simp at hs
  | case3 => simp at hs
  | case4 pos b hr h' hp hd hid =>
      simp only [Except.ok.injEq, Scan.found.injEq] at hs
      obtain ⟨rfl, rfl⟩ := hs
      exact ⟨parseHeader_read (readAt_size hr) hp (by simpa using hd : isDeof _ = false), hid⟩
  | case5 => simp at hs
  | case6 pos b hr h' hp hd hid he ih => exact ih hs

theorem scan_absent_inside {file : Bytes} {o : Order} {ids : List Int} {pos q : Nat}
    (hs : scan file o ids pos = .ok (.absent q)) : pos < file.length := by
  rw [scan] at hs
  split at hs
  · simp at hs
  · rename_i b hr
    have := readAt_length hr (by decide)
    have h2 : 0 < hsize := by decide
    omega

/-- Invariant of a loop over sections: `P pos s` at each position; the loop only ends inside the file. -/
theorem sectionLoop_inv {σ : Type} {file : Bytes} {o : Order} {ids : List Int}
    {step : σ → Header → Nat → Py (σ × Nat × Bool)} {P : Nat → σ → Prop} (hP : 0 < file.length)
    (hstep : ∀ pos s h p s' k c, P pos s → pos < p → p ≤ file.length → ReadHeader h → h.id ∈ ids →
      step s h p = .ok (s', k, c) → P (if c then p + k else 0) s') (pos : Nat) (s s' : σ) (h0 : P pos s)
    (h : sectionLoop file o ids step pos s = .ok s') : ∃ q, q < file.length ∧ P q s' := by
  fun_induction sectionLoop file o ids step pos s with
  | case1 => simp at h
  | case2 pos s q hs =>
    simp only [Except.ok.injEq] at h
    subst h
    exact ⟨pos, scan_absent_inside hs, h0⟩
  | case3 => simp at h
  | case4 pos s hd p hs s1 k hk ih =>
    obtain ⟨a, b⟩ := scan_found_read hs
    have hp := scan_found_pos _ _ _ _ _ _ hs
    have h2 : 0 < hsize := by decide
    exact ih (by simpa using hstep _ _ _ _ _ _ _ h0 (by omega) hp.2 a b hk) h
  | case5 pos s hd p hs s1 k hk =>
    simp only [Except.ok.injEq] at h
    subst h
    obtain ⟨a, b⟩ := scan_found_read hs
    have hp := scan_found_pos _ _ _ _ _ _ hs
    have h2 : 0 < hsize := by decide
    exact ⟨0, hP, by simpa using hstep _ _ _ _ _ _ _ h0 (by omega) hp.2 a b hk⟩

/-! ### Data -/

/-- Values as the reader makes them: doubles or, for scalars, integers on 64 bits. -/
def ReadValues (a : NpArr) : Prop :=
  match a.data with
  | .f64 _ => True
  | .i64 l => a.shape.length = 1 ∧ ∀ n ∈ l, FitsInt 8 n
  | .other _ => False

structure VarsRead (version no fa cv : Int) (s : RVars) : Prop where
  nodeKeys : s.nodes.keys.Nodup
  cellKeys : s.cells.keys.Nodup
  nodeNames : ∀ p ∈ s.nodes, UserName p.1
  cellNames : ∀ p ∈ s.cells, UserName p.1
  nodes : ∀ p ∈ s.nodes, 0 < no ∧ p.2.shape = [no.toNat] ∧ p.2.size = no.toNat ∧ ReadValues p.2
  cells : ∀ p ∈ s.cells, ReadValues p.2 ∧ ∃ d : Int, 1 ≤ d ∧ (version < 3 → d = 1) ∧ 0 < cv ∧
    GoodArr (d * cv).toNat p.2 ∧ (p.2.shape.length ≠ 3 → cv ≠ no ∧ cv ≠ fa)
  ndof : 1 ≤ s.attrs.ndof ∧ (version < 3 → s.attrs.ndof = 1)

theorem stats_pos {a : NpArr} {u : Unit} (h : stats a = .ok u) : 0 < a.size := by
  unfold stats at h
  split at h
  · simp at h
  · omega

theorem readScalar_good {file : Bytes} {o : Order} {id : Int} {p : Nat} {n : Int} {a : NpArr}
    (h : readScalar file o id p n = .ok a) (hin : p + moved file p (8 * n.toNat) < file.length) :
    a.shape = [n.toNat] ∧ a.size = n.toNat ∧ ReadValues a := by
  unfold readScalar at h
  split at h
  · obtain ⟨r, hr, h⟩ := bind_eq_ok.1 h
    obtain ⟨l, hl, h⟩ := bind_eq_ok.1 h
    simp only [Except_pure, Except.ok.injEq] at h
    cases r with
    | none => simp [orRaise] at hl
    | some l' =>
      simp only [orRaise, Except.ok.injEq] at hl
      subst hl
      obtain ⟨_, h2, h3⟩ := readI64_fit hr
      subst h
      exact ⟨by rw [h2], by simp [NpArr.size, h2], rfl, h3⟩
  · obtain ⟨r, hr, h⟩ := bind_eq_ok.1 h
    obtain ⟨_, h2, h3⟩ := readF64_count hr
    cases r with
    | none =>
      have := h3 rfl
      unfold moved afterRead at hin
      rw [if_neg (by omega)] at hin
      omega
    | some l =>
      simp only [Except_pure, Except.ok.injEq] at h
      subst h
      have := h2 l rfl
      exact ⟨by simp [this], by simp [NpArr.size, this], trivial⟩

theorem readRows_good {file : Bytes} {o : Order} {p : Nat} {n : Int} {tail : List Nat} {a : NpArr} (ht : 0 < tail.prod)
    (h : readRows file o p n tail = .ok a) :
    0 ≤ n ∧ a.shape = n.toNat :: tail ∧ a.size = a.shape.prod ∧ ReadValues a := by
  unfold readRows at h
  obtain ⟨r, hr, h⟩ := bind_eq_ok.1 h
  obtain ⟨l, hl, h⟩ := bind_eq_ok.1 h
  simp only [Except_pure, Except.ok.injEq] at h
  cases r with
  | none => simp [orRaise] at hl
  | some l' =>
    simp only [orRaise, Except.ok.injEq] at hl
    subst hl
    obtain ⟨h1, h2, _⟩ := readF64_count hr
    subst h
    have hn : 0 ≤ n := by
      by_contra hc
      have : n * (tail.prod : Int) < 0 := Int.mul_neg_of_neg_of_pos (by omega) (by omega)
      omega
    refine ⟨hn, rfl, ?_, trivial⟩
    show l'.length = (n.toNat :: tail).prod
    rw [h2 _ rfl, List.prod_cons]
    obtain ⟨k, rfl⟩ := Int.eq_ofNat_of_zero_le hn
    simp only [Int.ofNat_eq_natCast, Int.toNat_natCast]
    rw [← Int.natCast_mul, Int.toNat_natCast]

theorem ndof_ok {version n d : Int} (h : ndofOf version n = .ok d) : version < 3 → d = 1 := by
  intro hv
  unfold ndofOf at h
  split at h
  · simp at h
  · simpa [hv, eq_comm] using h

theorem setNdof_ok {a a' : DataAttrs} {d : Int} (h : setNdofAttrs a d = .ok a') (ha : 1 ≤ a.ndof) :
    1 ≤ a'.ndof ∧ (d = 1 → a'.ndof = a.ndof) := by
  unfold setNdofAttrs at h
  split at h
  · rename_i hd
    obtain ⟨b, hb, h⟩ := bind_eq_ok.1 h
    unfold DataAttrs.setNdof at h
    obtain ⟨_, _, h⟩ := bind_eq_ok.1 h
    simp only [Except_pure, Except.ok.injEq] at h
    subst h
    exact ⟨by simp only; omega, by omega⟩
  · simp only [Except.ok.injEq] at h
    subst h
    exact ⟨ha, fun _ => rfl⟩

/-- A cell array is added. -/
theorem VarsRead.addCell {version no fa cv : Int} {s : RVars} (hs : VarsRead version no fa cv s) {name : String}
    (hn : UserName name) {a : NpArr} {d i : Int} (hd : ndofOf version i = .ok d) {attrs : DataAttrs}
    (ha : setNdofAttrs s.attrs d = .ok attrs) (hv : ReadValues a) (hg : GoodArr (d * cv).toNat a) (hcv : 0 ≤ cv)
    (hpos : 0 < a.size) (hdiff : a.shape.length ≠ 3 → cv ≠ no ∧ cv ≠ fa) :
    VarsRead version no fa cv { s with attrs := attrs, cells := s.cells.set name a } := by
  have hdc : 0 < d * cv := by
    by_contra hc
    have h0 : (d * cv).toNat = 0 := by omega
    rw [h0] at hg
    obtain ⟨h1, h2⟩ := hg
    rw [h2] at hpos
    rcases h1 with h1 | h1 | h1 <;> rw [h1] at hpos <;> simp at hpos
  have hcv' : 0 < cv := by
    rcases Int.lt_or_eq_of_le hcv with h | h
    · exact h
    · rw [← h] at hdc; simp at hdc
  have hd1 : 1 ≤ d := by
    by_contra hc
    have : d * cv ≤ 0 := Int.mul_nonpos_of_nonpos_of_nonneg (by omega) hcv
    omega
  obtain ⟨h1, h2⟩ := setNdof_ok ha hs.ndof.1
  refine ⟨hs.nodeKeys, Dict.nodup_keys_set hs.cellKeys _ _, hs.nodeNames, ?_, hs.nodes, ?_, h1, ?_⟩
  · intro p hp
    rcases mem_set hp with rfl | hp
    · exact hn
    · exact hs.cellNames p hp
  · intro p hp
    rcases mem_set hp with rfl | hp
    · exact ⟨hv, d, hd1, ndof_ok hd, hcv', hg, hdiff⟩
    · exact hs.cells p hp
  · intro hv3
    rw [h2 (ndof_ok hd hv3)]
    exact hs.ndof.2 hv3

theorem scalarStep_read {file : Bytes} {o : Order} {version no fa cv : Int} (hcv : 0 ≤ cv) {s s' : RVars} {h : Header}
    {p k : Nat} {c : Bool} (hs : VarsRead version no fa cv s) (hh : ReadHeader h)
    (hst : scalarStep file o version no fa cv s h p = .ok (s', k, c)) :
    c = true ∧ (p + k < file.length → VarsRead version no fa cv s') := by
  unfold scalarStep at hst
  split at hst
  · obtain ⟨a, ha, hst⟩ := bind_eq_ok.1 hst
    obtain ⟨_, h0, hst⟩ := bind_eq_ok.1 hst
    simp only [Except_pure, Except.ok.injEq, Prod.mk.injEq] at hst
    obtain ⟨rfl, rfl, rfl⟩ := hst
    refine ⟨rfl, fun hin => ?_⟩
    obtain ⟨h1, h2, h3⟩ := readScalar_good ha hin
    have := stats_pos h0
    refine ⟨Dict.nodup_keys_set hs.nodeKeys _ _, hs.cellKeys, ?_, hs.cellNames, ?_, hs.cells, hs.ndof⟩
    · intro q hq
      rcases mem_set hq with rfl | hq
      · exact hh.name
      · exact hs.nodeNames q hq
    · intro q hq
      rcases mem_set hq with rfl | hq
      · exact ⟨by omega, h1, h2, h3⟩
      · exact hs.nodes q hq
  · rename_i hno
    split at hst
    · obtain ⟨a, ha, hst⟩ := bind_eq_ok.1 hst
      obtain ⟨_, h0, hst⟩ := bind_eq_ok.1 hst
      simp only [Except_pure, Except.ok.injEq, Prod.mk.injEq] at hst
      obtain ⟨rfl, rfl, rfl⟩ := hst
      exact ⟨rfl, fun _ => ⟨hs.nodeKeys, hs.cellKeys, hs.nodeNames, hs.cellNames, hs.nodes, hs.cells, hs.ndof⟩⟩
    · rename_i hfa
      split at hst
      · rename_i hce
        obtain ⟨d, hd, hst⟩ := bind_eq_ok.1 hst
        obtain ⟨at', hat, hst⟩ := bind_eq_ok.1 hst
        obtain ⟨a, ha, hst⟩ := bind_eq_ok.1 hst
        obtain ⟨_, h0, hst⟩ := bind_eq_ok.1 hst
        simp only [Except_pure, Except.ok.injEq, Prod.mk.injEq] at hst
        obtain ⟨rfl, rfl, rfl⟩ := hst
        refine ⟨rfl, fun hin => ?_⟩
        obtain ⟨h1, h2, h3⟩ := readScalar_good ha hin
        exact hs.addCell hh.name hd hat h3 ⟨Or.inl h1, by rw [h1, h2]; simp⟩ hcv (stats_pos h0)
          (fun _ => ⟨by omega, by omega⟩)
      · simp at hst

theorem vectorStep_read {file : Bytes} {o : Order} {version no fa cv : Int} (hcv : 0 ≤ cv) {s s' : RVars} {h : Header}
    {p k : Nat} {c : Bool} (hs : VarsRead version no fa cv s) (hh : ReadHeader h)
    (hst : vectorStep file o version no fa cv s h p = .ok (s', k, c)) : c = true ∧ VarsRead version no fa cv s' := by
  unfold vectorStep at hst
  split at hst
  · obtain ⟨a, ha, hst⟩ := bind_eq_ok.1 hst
    obtain ⟨_, h0, hst⟩ := bind_eq_ok.1 hst
    simp only [Except_pure, Except.ok.injEq, Prod.mk.injEq] at hst
    obtain ⟨rfl, rfl, rfl⟩ := hst
    exact ⟨rfl, ⟨hs.nodeKeys, hs.cellKeys, hs.nodeNames, hs.cellNames, hs.nodes, hs.cells, hs.ndof⟩⟩
  · rename_i hno
    split at hst
    · obtain ⟨a, ha, hst⟩ := bind_eq_ok.1 hst
      obtain ⟨_, h0, hst⟩ := bind_eq_ok.1 hst
      simp only [Except_pure, Except.ok.injEq, Prod.mk.injEq] at hst
      obtain ⟨rfl, rfl, rfl⟩ := hst
      exact ⟨rfl, ⟨hs.nodeKeys, hs.cellKeys, hs.nodeNames, hs.cellNames, hs.nodes, hs.cells, hs.ndof⟩⟩
    · rename_i hfa
      split at hst
      · rename_i hce
        obtain ⟨d, hd, hst⟩ := bind_eq_ok.1 hst
        obtain ⟨at', hat, hst⟩ := bind_eq_ok.1 hst
        obtain ⟨a, ha, hst⟩ := bind_eq_ok.1 hst
        obtain ⟨_, h0, hst⟩ := bind_eq_ok.1 hst
        simp only [Except_pure, Except.ok.injEq, Prod.mk.injEq] at hst
        obtain ⟨rfl, rfl, rfl⟩ := hst
        obtain ⟨_, h1, h2, h3⟩ := readRows_good (by decide) ha
        exact ⟨rfl, hs.addCell hh.name hd hat h3 ⟨Or.inr (Or.inl h1), h2⟩ hcv (stats_pos h0)
          (fun _ => ⟨by omega, by omega⟩)⟩
      · simp at hst

theorem tensorStep_read {file : Bytes} {o : Order} {version no fa cv : Int} (hcv : 0 ≤ cv) {s s' : RVars} {h : Header}
    {p k : Nat} {c : Bool} (hs : VarsRead version no fa cv s) (hh : ReadHeader h)
    (hst : tensorStep file o version cv s h p = .ok (s', k, c)) : c = true ∧ VarsRead version no fa cv s' := by
  unfold tensorStep at hst
  split at hst
  · rename_i hce
    obtain ⟨d, hd, hst⟩ := bind_eq_ok.1 hst
    obtain ⟨at', hat, hst⟩ := bind_eq_ok.1 hst
    obtain ⟨a, ha, hst⟩ := bind_eq_ok.1 hst
    obtain ⟨_, h0, hst⟩ := bind_eq_ok.1 hst
    simp only [Except_pure, Except.ok.injEq, Prod.mk.injEq] at hst
    obtain ⟨rfl, rfl, rfl⟩ := hst
    obtain ⟨_, h1, h2, h3⟩ := readRows_good (by decide) ha
    exact ⟨rfl, hs.addCell hh.name hd hat h3 ⟨Or.inr (Or.inr h1), h2⟩ hcv (stats_pos h0)
      (fun hc => absurd (by rw [h1]; rfl) hc)⟩
  · simp at hst

theorem readVars_read {file : Bytes} {o : Order} {version no fa cv : Int} (hcv : 0 ≤ cv) {s : RVars}
    (hf : 0 < file.length) (h : readVars file o version no fa cv = .ok s) : VarsRead version no fa cv s := by
  unfold readVars at h
  obtain ⟨s1, h1, h⟩ := bind_eq_ok.1 h
  obtain ⟨s2, h2, h3⟩ := bind_eq_ok.1 h
  have k1 : VarsRead version no fa cv s1 := by
    obtain ⟨q, hq, hP⟩ := sectionLoop_inv (P := fun pos s => pos < file.length → VarsRead version no fa cv s) hf
      (fun pos s h p s' k c hP hp hpl hh _ hst => by
        obtain ⟨rfl, hk⟩ := scalarStep_read hcv (hP (by omega)) hh hst
        simpa using hk) 8 vars0 s1
      (fun _ => ⟨by simp [vars0, Dict.keys], by simp [vars0, Dict.keys], by simp [vars0], by simp [vars0], by simp [vars0],
        by simp [vars0], by simp [vars0]⟩) h1
    exact hP hq
  have k2 : VarsRead version no fa cv s2 := by
    obtain ⟨q, hq, hP⟩ := sectionLoop_inv (P := fun _ s => VarsRead version no fa cv s) hf
      (fun pos s h p s' k c hP hp hpl hh _ hst => (vectorStep_read hcv hP hh hst).2) 8 s1 s2 k1 h2
    exact hP
  obtain ⟨q, hq, hP⟩ := sectionLoop_inv (P := fun _ s => VarsRead version no fa cv s) hf
    (fun pos s h p s' k c hP hp hpl hh _ hst => (tensorStep_read hcv hP hh hst).2) 8 s2 s k2 h3
  exact hP

end Cfd.Ic3
