import Verif.Lemmas.Ic3Format
import Verif.Spec.Ic3File

/-! The chunks written by the IC3 writers make the sections of the specification. -/

namespace Cfd.Ic3
open Spec Spec.Ic3

/-- A section whose header can be packed and whose skip is right. -/
structure SecOK (s : Sec) : Prop where
  packable : s.h.Packable
  ints : s.h.idata.length = 8
  reals : s.h.rdata.length = 16
  skip : s.h.skip = 256 + (s.payload.length : Int)

/-- Name and identifier do not stop the readers; parameters are headers alone. -/
def Passes (s : Sec) : Prop :=
  (UserName s.h.name ∧ s.h.id ≠ cEof) ∧ ((s.h.id = cI0 ∨ s.h.id = cD0) → s.payload = [])

theorem SecOK.wf {s : Sec} (h : SecOK s) (p : UserName s.h.name) : SecWF s :=
  ⟨⟨p.1, h.packable.2.1, h.packable.2.2.1, ⟨h.ints, h.packable.2.2.2⟩, h.reals⟩, h.skip, p.2⟩

/-- `cs` writes the sections `secs` when no exception stops it, otherwise a beginning of some correct
sections. -/
structure Emits (o : Order) (cs : List (Py Bytes)) (secs : List Sec) : Prop where
  full : ∀ bs : List Bytes, cs = bs.map .ok → bs.flatten = secsBytes o secs ∧ ∀ s ∈ secs, SecOK s
  part : ∀ (bs : List Bytes) (er : PyErr) (rest : List (Py Bytes)), cs = bs.map .ok ++ .error er :: rest →
    ∃ secs', (∀ s ∈ secs', SecOK s ∧ Passes s) ∧ bs.flatten <+: secsBytes o secs'

theorem secsBytes_append (o : Order) (a b : List Sec) :
    secsBytes o (a ++ b) = secsBytes o a ++ secsBytes o b := by simp [secsBytes]

theorem Emits.nil (o : Order) : Emits o [] [] where
  full := by
    intro bs h
    have : bs = [] := by simpa using h.symm
    subst this
    simp [secsBytes]
  part := by
    intro bs er rest h
    have := congrArg List.length h
    simp at this

theorem Emits.append {o : Order} {c1 c2 : List (Py Bytes)} {s1 s2 : List Sec} (h1 : Emits o c1 s1)
    (hp : ∀ s ∈ s1, Passes s) (h2 : Emits o c2 s2) : Emits o (c1 ++ c2) (s1 ++ s2) where
  full := by
    intro bs h
    obtain ⟨b1, b2, rfl, e1, e2⟩ := List.append_eq_map_iff.1 h
    obtain ⟨f1, g1⟩ := h1.full b1 e1.symm
    obtain ⟨f2, g2⟩ := h2.full b2 e2.symm
    refine ⟨by simp [f1, f2, secsBytes_append], ?_⟩
    intro s hs
    rcases List.mem_append.1 hs with hs | hs
    · exact g1 s hs
    · exact g2 s hs
  part := by
    intro bs er rest h
    rcases List.append_eq_append_iff.1 h with ⟨m, h3, h4⟩ | ⟨m, h3, h4⟩
    · -- the exception is in the second list
      obtain ⟨b1, b2, rfl, e1, e2⟩ := List.map_eq_append_iff.1 h3
      obtain ⟨f1, g1⟩ := h1.full b1 e1.symm
      rw [← e2] at h4
      obtain ⟨s', q, k⟩ := h2.part b2 er rest h4
      refine ⟨s1 ++ s', ?_, ?_⟩
      · intro s hs
        rcases List.mem_append.1 hs with hs | hs
        · exact ⟨g1 s hs, hp s hs⟩
        · exact q s hs
      · rw [List.flatten_append, f1, secsBytes_append]
        exact (List.prefix_append_right_inj _).2 k
    · cases m with
      | nil =>
        simp only [List.append_nil] at h3
        simp only [List.nil_append] at h4
        obtain ⟨f1, g1⟩ := h1.full bs h3
        exact ⟨s1, fun s hs => ⟨g1 s hs, hp s hs⟩, by rw [f1]; exact List.prefix_rfl⟩
      | cons x m =>
        simp only [List.cons_append, List.cons.injEq] at h4
        obtain ⟨rfl, rfl⟩ := h4
        exact h1.part bs er m h3

theorem Emits.flatMap {α : Type} {o : Order} (l : List α) (c : α → List (Py Bytes)) (s : α → List Sec)
    (h : ∀ x ∈ l, Emits o (c x) (s x)) (hp : ∀ x ∈ l, ∀ y ∈ s x, Passes y) :
    Emits o (l.flatMap c) (l.flatMap s) := by
  induction l with
  | nil => exact Emits.nil o
  | cons x t ih =>
    simp only [List.flatMap_cons]
    exact (h x (by simp)).append (hp x (by simp))
      (ih (fun y hy => h y (by simp [hy])) (fun y hy => hp y (by simp [hy])))

/-- A single exception writes nothing. -/
theorem Emits.error (o : Order) (er : PyErr) (secs : List Sec) : Emits o [.error er] secs where
  full := by
    intro bs h
    cases bs with
    | nil => simp at h
    | cons b t => simp at h
  part := by
    intro bs er rest h
    cases bs with
    | nil => exact ⟨[], by simp, by simp⟩
    | cons b t => simp at h

/-- Payload chunks: `n` bytes in all. -/
structure Pay (pcs : List (Py Bytes)) (n : Nat) (payload : Bytes) : Prop where
  full : ∀ bs : List Bytes, pcs = bs.map .ok → bs.flatten = payload ∧ payload.length = n
  part : ∀ (bs : List Bytes) (rest : List (Py Bytes)), pcs = bs.map .ok ++ rest → bs.flatten.length ≤ n

theorem secHeader_ok {host : Order} {e : Endian} {name : String} {id : Int} {skip : Nat} {idata : List Int}
    {rdata : List F64} {b : Bytes} (h : secHeader host e name id skip idata rdata = .ok b) :
    (mkHeader name id skip idata rdata).Packable ∧
      b = hdrBytes (e.order host) (mkHeader name id skip idata rdata) :=
  (write_ok_iff _ _ _ _).1 h

theorem mkHeader_lengths (name : String) (id : Int) (skip : Int) (idata : List Int) (rdata : List F64)
    (hi : idata.length ≤ 8) (hr : rdata.length ≤ 16) :
    (mkHeader name id skip idata rdata).idata.length = 8 ∧
      (mkHeader name id skip idata rdata).rdata.length = 16 := by
  simp [mkHeader]; omega

/-- One section: its header then its payload. -/
theorem Emits.one {host : Order} {e : Endian} {name : String} {id : Int} {n : Nat} {idata : List Int}
    {rdata : List F64} {pcs : List (Py Bytes)} {payload : Bytes} (hi : idata.length ≤ 8)
    (hr : rdata.length ≤ 16) (hp : Pay pcs n payload) (hpass : UserName name ∧ id ≠ cEof)
    (hpar : (id = cI0 ∨ id = cD0) → n = 0) {skip : Nat} (hsk : skip = 256 + n) :
    Emits (e.order host) (secHeader host e name id skip idata rdata :: pcs)
      [sec name id idata rdata payload] where
  full := by
    intro bs h
    cases bs with
    | nil => simp at h
    | cons b t =>
      simp only [List.map_cons, List.cons.injEq] at h
      obtain ⟨h1, h2⟩ := h
      obtain ⟨g1, rfl⟩ := secHeader_ok h1
      obtain ⟨f1, f2⟩ := hp.full t h2
      have es : (skip : Int) = 256 + (payload.length : Int) := by omega
      rw [es] at g1
      have hl := mkHeader_lengths name id (256 + (payload.length : Int)) idata rdata hi hr
      refine ⟨?_, ?_⟩
      · simp [secsBytes, Sec.bytes, sec, f1, es]
      · simp only [List.mem_singleton, forall_eq]
        exact ⟨g1, hl.1, hl.2, rfl⟩
  part := by
    intro bs er rest h
    cases bs with
    | nil => exact ⟨[], by simp, by simp⟩
    | cons b t =>
      simp only [List.map_cons, List.cons_append, List.cons.injEq] at h
      obtain ⟨h1, h2⟩ := h
      obtain ⟨g1, rfl⟩ := secHeader_ok h1
      have hle := hp.part t _ h2
      let pl : Bytes := t.flatten ++ List.replicate (n - t.flatten.length) 0
      have hpl : pl.length = n := by simp only [pl, List.length_append, List.length_replicate]; omega
      have es : (skip : Int) = 256 + (pl.length : Int) := by omega
      rw [es] at g1
      have hl := mkHeader_lengths name id (256 + (pl.length : Int)) idata rdata hi hr
      refine ⟨[⟨mkHeader name id (256 + (pl.length : Int)) idata rdata, pl⟩], ?_, ?_⟩
      · simp only [List.mem_singleton, forall_eq]
        exact ⟨⟨g1, hl.1, hl.2, rfl⟩, hpass, fun h => List.length_eq_zero_iff.1 (by rw [hpl]; exact hpar h)⟩
      · simp only [List.flatten_cons, secsBytes, List.flatMap_cons, List.flatMap_nil, List.append_nil,
          Sec.bytes]
        rw [es]
        exact (List.prefix_append_right_inj _).2 (List.prefix_append _ _)

theorem Pay.nil : Pay [] 0 [] where
  full := by
    intro bs h
    have : bs = [] := by simpa using h.symm
    simp [this]
  part := by
    intro bs rest h
    have h' := congrArg List.length h
    simp only [List.length_nil, List.length_append, List.length_map] at h'
    have : bs = [] := List.length_eq_zero_iff.1 (by omega)
    simp [this]

theorem Pay.single {c : Py Bytes} {n : Nat} {payload : Bytes}
    (h : ∀ b, c = .ok b → b = payload ∧ b.length = n) : Pay [c] n payload where
  full := by
    intro bs hb
    match bs, hb with
    | [b], hb =>
      have hb' : c = .ok b := by simpa using hb
      obtain ⟨h1, h2⟩ := h b hb'
      subst h1
      simp [h2]
  part := by
    intro bs rest hb
    match bs, hb with
    | [], hb => simp
    | [b], hb =>
      have hb' : c = .ok b := by simp only [List.map_cons, List.map_nil, List.cons_append, List.nil_append, List.cons.injEq] at hb; exact hb.1
      obtain ⟨h1, h2⟩ := h b hb'
      simp [h2]
    | b :: b' :: t, hb =>
      have := congrArg List.length hb
      simp at this

theorem Pay.pair {c c' : Py Bytes} {n n' : Nat} {p p' : Bytes}
    (h : ∀ b, c = .ok b → b = p ∧ b.length = n) (h' : ∀ b, c' = .ok b → b = p' ∧ b.length = n') :
    Pay [c, c'] (n + n') (p ++ p') where
  full := by
    intro bs hb
    match bs, hb with
    | [b, b'], hb =>
      have hb' : c = .ok b ∧ c' = .ok b' := by simpa using hb
      obtain ⟨h1, h2⟩ := h b hb'.1
      obtain ⟨h3, h4⟩ := h' b' hb'.2
      subst h1 h3
      simp [h2, h4]
  part := by
    intro bs rest hb
    match bs, hb with
    | [], hb => simp
    | [b], hb =>
      have hb' : c = .ok b := by simp only [List.map_cons, List.map_nil, List.cons_append, List.nil_append, List.cons.injEq] at hb; exact hb.1
      obtain ⟨h1, h2⟩ := h b hb'
      simp [h2]
    | [b, b'], hb =>
      have hb' : c = .ok b ∧ c' = .ok b' := by
        simp only [List.map_cons, List.map_nil, List.cons_append, List.nil_append, List.cons.injEq] at hb
        exact ⟨hb.1, hb.2.1⟩
      obtain ⟨h1, h2⟩ := h b hb'.1
      obtain ⟨h3, h4⟩ := h' b' hb'.2
      simp [h2, h4]
    | b :: b' :: b'' :: t, hb =>
      have := congrArg List.length hb
      simp at this

theorem structPack_const (host : Order) (e : Endian) (s : Nat) (l : List Item) (h : ∀ x ∈ l, x.size = s) :
    structPack host e l = packAll (e.order host) l := by
  unfold structPack
  exact packFrom_aligned _ _ _ _ (fun _ => aligned_const 0 s l h (by simp))

theorem writeI32_ok {host : Order} {e : Endian} {n : Nat} {l : List Int} {b : Bytes} :
    writeI32 host e n l = .ok b ↔
      l.length = n ∧ (∀ x ∈ l, FitsInt 4 x) ∧ b = intsBytes (e.order host) 4 l := by
  unfold writeI32
  split
  · rename_i h
    rw [structPack_const host e 4 _ (by simp [Item.size]), packAll_ints]
    simp [h]
  · rename_i h; simp [h]

theorem writeI64_ok {host : Order} {e : Endian} {n : Nat} {l : List Int} {b : Bytes} :
    writeI64 host e n l = .ok b ↔
      l.length = n ∧ (∀ x ∈ l, FitsInt 8 x) ∧ b = intsBytes (e.order host) 8 l := by
  unfold writeI64
  split
  · rename_i h
    rw [structPack_const host e 8 _ (by simp [Item.size]), packAll_longs]
    simp [h]
  · rename_i h; simp [h]

theorem writeF64_ok {host : Order} {e : Endian} {n : Nat} {l : List F64} {b : Bytes} :
    writeF64 host e n l = .ok b ↔ l.length = n ∧ b = f64sBytes (e.order host) l := by
  unfold writeF64
  split
  · rename_i h
    rw [structPack_const host e 8 _ (by simp [Item.size]), packAll_f64s]
    simp [h, eq_comm]
  · rename_i h; simp [h]

theorem pay_i32 (host : Order) (e : Endian) (n : Nat) (l : List Int) :
    ∀ b, writeI32 host e n l = .ok b → b = intsBytes (e.order host) 4 l ∧ b.length = 4 * n := by
  intro b hb
  obtain ⟨h1, _, rfl⟩ := writeI32_ok.1 hb
  exact ⟨rfl, by simp [h1]⟩

theorem pay_i64 (host : Order) (e : Endian) (n : Nat) (l : List Int) :
    ∀ b, writeI64 host e n l = .ok b → b = intsBytes (e.order host) 8 l ∧ b.length = 8 * n := by
  intro b hb
  obtain ⟨h1, _, rfl⟩ := writeI64_ok.1 hb
  exact ⟨rfl, by simp [h1]⟩

theorem pay_f64 (host : Order) (e : Endian) (n : Nat) (l : List F64) :
    ∀ b, writeF64 host e n l = .ok b → b = f64sBytes (e.order host) l ∧ b.length = 8 * n := by
  intro b hb
  obtain ⟨h1, rfl⟩ := writeF64_ok.1 hb
  exact ⟨rfl, by simp [h1]⟩

/-- A list of sections all with names and identifiers that do not stop the readers. -/
def AllPass (l : List Sec) : Prop := ∀ s ∈ l, Passes s

/-- Emission of sections that do not stop the readers. -/
def Em (o : Order) (cs : List (Py Bytes)) (secs : List Sec) : Prop := Emits o cs secs ∧ AllPass secs

theorem Em.nil (o : Order) : Em o [] [] := ⟨Emits.nil o, by intro s hs; simp at hs⟩

theorem Em.append {o : Order} {c1 c2 : List (Py Bytes)} {s1 s2 : List Sec} (h1 : Em o c1 s1)
    (h2 : Em o c2 s2) : Em o (c1 ++ c2) (s1 ++ s2) := by
  refine ⟨h1.1.append h1.2 h2.1, ?_⟩
  intro s hs
  rcases List.mem_append.1 hs with hs | hs
  · exact h1.2 s hs
  · exact h2.2 s hs

theorem Em.one {host : Order} {e : Endian} {name : String} {id : Int} {n : Nat} {idata : List Int}
    {rdata : List F64} {pcs : List (Py Bytes)} {payload : Bytes} (hi : idata.length ≤ 8)
    (hr : rdata.length ≤ 16) (hp : Pay pcs n payload)
    (hpass : (UserName name ∧ id ≠ cEof) ∧ ¬ (id = cI0 ∨ id = cD0)) {skip : Nat}
    (hsk : skip = 256 + n) :
    Em (e.order host) (secHeader host e name id skip idata rdata :: pcs)
      [sec name id idata rdata payload] :=
  ⟨Emits.one hi hr hp hpass.1 (fun h => absurd h hpass.2) hsk, by
    intro s hs
    simp only [List.mem_singleton] at hs
    subst hs
    exact ⟨hpass.1, fun h => absurd h hpass.2⟩⟩

/-- A header alone, whose values may have to be computed. -/
theorem Em.hdr {host : Order} {e : Endian} {name : String} {id : Int} {idata : List Int}
    {rdata : List F64} {c : Py Bytes}
    (h : ∀ b, c = .ok b → idata.length ≤ 8 ∧ rdata.length ≤ 16 ∧
      secHeader host e name id hsize idata rdata = .ok b)
    (hpass : UserName name ∧ id ≠ cEof) :
    Em (e.order host) [c] [sec name id idata rdata []] := by
  refine ⟨?_, by
    intro s hs
    simp only [List.mem_singleton] at hs
    subst hs
    exact ⟨hpass, fun _ => rfl⟩⟩
  cases hc : c with
  | error er => exact Emits.error _ _ _
  | ok b =>
    obtain ⟨h1, h2, h3⟩ := h b hc
    rw [← h3]
    exact Emits.one h1 h2 Pay.nil hpass (fun _ => rfl) rfl

theorem Em.flatMap {α : Type} {o : Order} (l : List α) (c : α → List (Py Bytes)) (s : α → List Sec)
    (h : ∀ x ∈ l, Em o (c x) (s x)) : Em o (l.flatMap c) (l.flatMap s) := by
  induction l with
  | nil => exact Em.nil o
  | cons x t ih =>
    simp only [List.flatMap_cons]
    exact (h x (by simp)).append (ih (fun y hy => h y (by simp [hy])))

theorem Em.map {α : Type} {o : Order} (l : List α) (c : α → Py Bytes) (s : α → Sec)
    (h : ∀ x ∈ l, Em o [c x] [s x]) : Em o (l.map c) (l.map s) := by
  induction l with
  | nil => exact Em.nil o
  | cons x t ih =>
    exact (h x (by simp)).append (ih (fun y hy => h y (by simp [hy])))

theorem Em.filterMap {α : Type} {o : Order} (l : List α) (c : α → List (Py Bytes)) (q : α → Bool)
    (s : α → Sec)
    (h1 : ∀ x ∈ l, q x = true → Em o (c x) [s x]) (h2 : ∀ x ∈ l, q x = false → Em o (c x) []) :
    Em o (l.flatMap c) ((l.filter q).map s) := by
  induction l with
  | nil => exact Em.nil o
  | cons x t ih =>
    have h3 := ih (fun y hy => h1 y (by simp [hy])) (fun y hy => h2 y (by simp [hy]))
    rw [List.flatMap_cons]
    by_cases hq : q x = true
    · rw [List.filter_cons_of_pos hq]
      exact (h1 x (by simp) hq).append h3
    · rw [List.filter_cons_of_neg hq]
      exact (h2 x (by simp) (by simpa using hq)).append h3

/-! ## Mesh sections -/

section
variable (host : Order) (e : Endian)

theorem em_check (v : Ver) (w : WState) :
    Em (e.order host) (checkChunks host e v w) (checkSecs (e.order host) v w) := by
  cases v with
  | v3 => exact Em.nil _
  | v2 =>
    have one : ∀ name id n, (UserName name ∧ id ≠ cEof) ∧ ¬ (id = cI0 ∨ id = cD0) →
        Em (e.order host) (checkSection host e name id n)
          [sec name id [(n : Int)] [] (intsBytes (e.order host) 4 (pyRange 0 n))] := by
      intro name id n hp
      exact Em.one (by simp) (by simp) (Pay.single (pay_i32 host e n _)) hp rfl
    exact ((one _ _ _ (by decide)).append (one _ _ _ (by decide))).append (one _ _ _ (by decide))

theorem getRange_ok {il : IndexList} {r : Int × Int} (h : il.getRange = .ok r) :
    il = .range r.1 r.2 := by
  cases il <;> simp [IndexList.getRange] at h
  subst h; rfl

theorem zoneChunk_ok {p : String × Mark} {b : Bytes} (h : zoneChunk host e p = .ok b) :
    p.1 = p.2.name ∧ p.2.onFaces = true ∧ (∃ k, type2zonekind.get? p.2.type = some k) ∧
      (p.2.index = .range (markRange p.2).1 (markRange p.2).2) ∧ (p.2.perio.getD []).length ≤ 16 ∧
      secHeader host e p.1 cFaZone hsize [(type2zonekind.get? p.2.type).getD 0, (markRange p.2).1,
        (markRange p.2).2] (p.2.perio.getD []) = .ok b := by
  unfold zoneChunk at h
  simp only [bind_eq_ok, pyAssert_eq_ok, decide_eq_true_eq] at h
  obtain ⟨_, h1, _, h2, _, h3, r, h4, k, h5, h6⟩ := h
  have h4 := getRange_ok h4
  unfold Dict.getE at h5
  split at h5
  · rename_i k' hk
    simp only [Except.ok.injEq] at h5
    subst h5
    split at h6
    · simp at h6
    · rename_i hl
      refine ⟨h1, h2, ⟨_, hk⟩, ?_, by omega, ?_⟩
      · rw [markRange, h4]
      · rw [hk, markRange, h4]; exact h6
  · simp at h5

theorem em_zone (p : String × Mark) (hn : UserName p.1) :
    Em (e.order host) [zoneChunk host e p] [zoneSec p] :=
  Em.hdr (fun b hb => by
    obtain ⟨_, _, _, _, h5, h6⟩ := zoneChunk_ok host e hb
    exact ⟨by simp, h5, h6⟩) ⟨hn, by decide⟩

theorem em_part (w : WState) :
    Em (e.order host) (partChunks host e w)
      [sec "CV_PART" cCvPart [w.ncv, WState.npart w] [] (intsBytes (e.order host) 4 (WState.icv w))] := by
  unfold partChunks
  cases hp : w.part with
  | none =>
    refine ⟨Emits.error _ _ _, ?_⟩
    intro s hs
    simp only [List.mem_singleton] at hs
    subst hs
    exact ⟨⟨by show UserName "CV_PART"; decide, by show cCvPart ≠ cEof; decide⟩,
      fun h => absurd h (by show ¬ (cCvPart = cI0 ∨ cCvPart = cD0); decide)⟩
  | some p =>
    obtain ⟨np, ic⟩ := p
    have e1 : WState.npart w = np.getD 1 := by simp [WState.npart, hp]
    rw [e1]
    refine Em.one (by simp) (by simp) (Pay.single ?_) (by decide) rfl
    intro b hb
    cases ic with
    | missing => simpa [WState.icv, hp] using pay_i32 host e _ _ b hb
    | arr l => simpa [WState.icv, hp] using pay_i32 host e _ _ b hb
    | null => simp [icvChunk] at hb

theorem em_conn (v : Ver) (w : WState) (hn : ∀ p ∈ w.bocos, UserName p.1) :
    Em (e.order host) (connChunks host e v w) (connSecs (e.order host) v w) := by
  unfold connChunks connSecs
  have h1 : Em (e.order host)
      [secHeader host e "NO_FA_CV_NOOFA_COUNTS" cCounts hsize [w.nno, w.nfa, w.ncv, w.noofaV.length]]
      [sec "NO_FA_CV_NOOFA_COUNTS" cCounts [w.nno, w.nfa, w.ncv, w.noofaV.length] [] []] :=
    Em.one (by simp) (by simp) Pay.nil (by decide) rfl
  have h2 : Em (e.order host)
      [secHeader host e "NOOFA_I_AND_V" cNoofa (hsize + 4 * w.nfa + 4 * w.noofaV.length)
        [w.nfa, w.noofaV.length], writeI32 host e w.nfa w.noofa, writeI32 host e w.noofaV.length w.noofaV]
      [sec "NOOFA_I_AND_V" cNoofa [w.nfa, w.noofaV.length] []
        (intsBytes (e.order host) 4 w.noofa ++ intsBytes (e.order host) 4 w.noofaV)] :=
    Em.one (by simp) (by simp) (Pay.pair (pay_i32 host e _ _) (pay_i32 host e _ _)) (by decide)
      (by simp [hsize]; omega)
  have h3 : Em (e.order host)
      [secHeader host e "CVOFA" cCvofa (hsize + 4 * w.nfa * 2) [w.nfa, 2], f2eChunk host e w.nfa w.f2e]
      [sec "CVOFA" cCvofa [w.nfa, 2] []
        (intsBytes (e.order host) 4 ((WState.rows w).flatMap fun r => [r.1, r.2]))] := by
    refine Em.one (by simp) (by simp) (Pay.single (n := 4 * (w.nfa * 2)) ?_) (by decide)
      (by simp [hsize]; omega)
    intro b hb
    unfold WState.rows
    cases hf : w.f2e with
    | none => rw [hf] at hb; simp [f2eChunk] at hb
    | some rows =>
      rw [hf] at hb
      exact pay_i32 host e _ _ b hb
  have h4 : Em (e.order host) (w.bocos.map (zoneChunk host e)) (w.bocos.map zoneSec) :=
    Em.map _ _ _ (fun p hp => em_zone host e p (hn p hp))
  have h5 : Em (e.order host) [internalChunk host e w] [internalSec w] :=
    Em.one (by simp) (by simp) Pay.nil (by decide) rfl
  have h6 : Em (e.order host)
      [secHeader host e "X_NO" cXno (hsize + 8 * w.nno * 3) [w.nno, 3],
        writeF64 host e (w.nno * 3) (w.coords.flatMap fun p => [p.1, p.2.1, p.2.2])]
      [sec "X_NO" cXno [w.nno, 3] [] (f64sBytes (e.order host) (w.coords.flatMap fun p => [p.1, p.2.1, p.2.2]))] :=
    Em.one (by simp) (by simp) (Pay.single (pay_f64 host e _ _)) (by decide)
      (by simp [hsize]; omega)
  have := (((((h1.append (em_check host e v w)).append (h2.append h3)).append h4).append h5).append
    (em_part host e w)).append h6
  simpa only [List.append_assoc, List.cons_append, List.nil_append] using this

theorem em_info (cv : Conv) (s : SimState) (hn : ∀ p ∈ wgtsOf s.wgt, UserName (p.1.toUpper ++ "_WGT")) :
    Em (e.order host) (infoChunks host e cv s) (infoSecs cv s) := by
  unfold infoChunks infoSecs
  have h1 : Em (e.order host) [secHeader host e "DATA" cData hsize []] [sec "DATA" cData [] [] []] :=
    Em.one (by simp) (by simp) Pay.nil (by decide) rfl
  have h2 : Em (e.order host) [stepChunk host e cv "STEP" s.step] [sec "STEP" cI0 [simIntD cv s.step] [] []] := by
    refine Em.hdr ?_ (by decide)
    intro b hb
    unfold stepChunk at hb
    simp only [bind_eq_ok] at hb
    obtain ⟨n, h1, h2⟩ := hb
    refine ⟨by simp, by simp, ?_⟩
    rw [simIntD, h1]
    exact h2
  have hr : ∀ name x, UserName name →
      Em (e.order host) [realChunk host e cv name x] [sec name cD0 [] [simF64D cv x] []] := by
    intro name x hu
    refine Em.hdr ?_ ⟨hu, by decide⟩
    intro b hb
    unfold realChunk at hb
    simp only [bind_eq_ok] at hb
    obtain ⟨n, h1, h2⟩ := hb
    refine ⟨by simp, by simp, ?_⟩
    rw [simF64D, h1]
    exact h2
  have hw : Em (e.order host) (wgtChunks host e s.wgt)
      ((wgtsOf s.wgt).map fun p => sec (p.1.toUpper ++ "_WGT") cD0 [] [p.2] []) := by
    cases hs : s.wgt with
    | int n => exact ⟨Emits.error _ _ _, by intro s hs; simp [wgtsOf] at hs⟩
    | f64 n => exact ⟨Emits.error _ _ _, by intro s hs; simp [wgtsOf] at hs⟩
    | wgts d =>
      rw [hs] at hn
      exact Em.map _ _ _ (fun p hp => Em.hdr (fun b hb => ⟨by simp, by simp, hb⟩) ⟨hn p hp, by decide⟩)
  exact (((h1.append h2).append (hr _ _ (by decide))).append (hr _ _ (by decide))).append hw

/-! ## Data sections -/

theorem Em.skip (o : Order) (er : PyErr) : Em o [.error er] [] :=
  ⟨Emits.error _ _ _, by intro s hs; simp at hs⟩

theorem em_scalars (l : Dict String NpArr) (c : String × NpArr → List (Py Bytes)) (s : String × NpArr → Sec)
    (h : ∀ p ∈ l, Em (e.order host) (c p) [s p]) :
    Em (e.order host) (l.flatMap fun p => whenScalar p.2 (c p)) ((l.filter fun p => Scalar p.2).map s) := by
  refine Em.filterMap _ _ _ _ ?_ ?_
  · intro p hp hs
    unfold whenScalar NpArr.isScalar
    unfold Scalar at hs
    split at hs
    · simp at hs
    · rename_i n t ht
      have : p.2.size = n := by simpa using hs
      rw [ht]
      simp only [this, decide_true]
      exact h p hp
  · intro p hp hs
    unfold whenScalar NpArr.isScalar
    unfold Scalar at hs
    split at hs
    · rename_i ht
      rw [ht]
      exact Em.skip _ _
    · rename_i n t ht
      have : ¬ p.2.size = n := by simpa using hs
      rw [ht]
      simp only [this, decide_false]
      exact Em.nil _

theorem em_shaped (l : Dict String NpArr) (k : Nat) (c : String × NpArr → List (Py Bytes))
    (s : String × NpArr → Sec) (h : ∀ p ∈ l, Em (e.order host) (c p) [s p]) :
    Em (e.order host) (l.flatMap fun p => if p.2.shape.length = k then c p else [])
      ((l.filter fun p => p.2.shape.length = k).map s) := by
  refine Em.filterMap _ _ _ _ ?_ ?_
  · intro p hp hs
    rw [if_pos (by simpa using hs)]
    exact h p hp
  · intro p hp hs
    rw [if_neg (by simpa using hs)]
    exact Em.nil _

theorem em_f64 (name : String) (id : Int) (n : Nat) (idata : List Int) (hi : idata.length ≤ 8) (l : List F64)
    (skip : Nat) (hs : skip = 256 + 8 * n) (hp : (UserName name ∧ id ≠ cEof) ∧ ¬ (id = cI0 ∨ id = cD0)) :
    Em (e.order host) [secHeader host e name id skip idata, writeF64 host e n l]
      [sec name id idata [] (f64sBytes (e.order host) l)] :=
  Em.one hi (by simp) (Pay.single (pay_f64 host e _ _)) hp hs

theorem em_i64 (name : String) (id : Int) (n : Nat) (idata : List Int) (hi : idata.length ≤ 8) (l : List Int)
    (skip : Nat) (hs : skip = 256 + 8 * n) (hp : (UserName name ∧ id ≠ cEof) ∧ ¬ (id = cI0 ∨ id = cD0)) :
    Em (e.order host) [secHeader host e name id skip idata, writeI64 host e n l]
      [sec name id idata [] (intsBytes (e.order host) 8 l)] :=
  Em.one hi (by simp) (Pay.single (pay_i64 host e _ _)) hp hs

theorem em_varsV2 (cv : Conv) (w : WState) (hn : ∀ p ∈ w.nodes, UserName p.1)
    (hc : ∀ p ∈ w.cells.data, UserName p.1) :
    Em (e.order host) (varChunksV2 host e cv w) (varSecsV2 (e.order host) cv w) := by
  unfold varChunksV2 varSecsV2
  refine (((Em.append ?_ ?_).append ?_).append ?_).append ?_
  · exact em_scalars host e _ _ _ fun p hp =>
      em_f64 host e _ _ _ _ (by simp) _ _ rfl ⟨⟨hn p hp, by decide⟩, by decide⟩
  · exact em_shaped host e _ _ _ _ fun p hp =>
      em_f64 host e _ _ _ _ (by simp) _ _ (by simp [hsize]; omega) ⟨⟨hn p hp, by decide⟩, by decide⟩
  · exact em_scalars host e _ _ _ fun p hp =>
      em_f64 host e _ _ _ _ (by simp) _ _ rfl ⟨⟨hc p hp, by decide⟩, by decide⟩
  · exact em_shaped host e _ _ _ _ fun p hp =>
      em_f64 host e _ _ _ _ (by simp) _ _ (by simp [hsize]; omega) ⟨⟨hc p hp, by decide⟩, by decide⟩
  · exact em_shaped host e _ _ _ _ fun p hp =>
      em_f64 host e _ _ _ _ (by simp) _ _ (by simp [hsize]; omega) ⟨⟨hc p hp, by decide⟩, by decide⟩

theorem em_scalarV3 (p : String × NpArr) (idF idI : Int) (n : Nat) (idata : List Int)
    (hi : idata.length ≤ 8) (hp : UserName p.1) (h1 : idF ≠ cEof ∧ ¬ (idF = cI0 ∨ idF = cD0))
    (h2 : idI ≠ cEof ∧ ¬ (idI = cI0 ∨ idI = cD0)) :
    Em (e.order host) (match p.2.data with
      | .f64 l => [secHeader host e p.1 idF (hsize + 8 * n) idata, writeF64 host e n l]
      | .i64 l => [secHeader host e p.1 idI (hsize + 8 * n) idata, writeI64 host e n l]
      | .other _ => [.error .key])
      [sec p.1 (if isI64 p.2 then idI else idF) idata [] (scalarPayload (e.order host) p.2)] := by
  obtain ⟨name, ⟨shape, data⟩⟩ := p
  cases data with
  | f64 l => exact em_f64 host e _ _ _ _ hi _ _ rfl ⟨⟨hp, h1.1⟩, h1.2⟩
  | i64 l => exact em_i64 host e _ _ _ _ hi _ _ rfl ⟨⟨hp, h2.1⟩, h2.2⟩
  | other l =>
    refine ⟨Emits.error _ _ _, ?_⟩
    intro s hs
    simp only [List.mem_singleton] at hs
    subst hs
    exact ⟨⟨hp, h1.1⟩, fun h => absurd h h1.2⟩

theorem em_varsV3 (cv : Conv) (w : WState) (hn : ∀ p ∈ w.nodes, UserName p.1)
    (hc : ∀ p ∈ w.cells.data, UserName p.1) :
    Em (e.order host) (varChunksV3 host e cv w) (varSecsV3 (e.order host) cv w) := by
  unfold varChunksV3 varSecsV3
  have h1 : Em (e.order host) (w.nodes.flatMap (scalarV3 host e cNoD1 cNoII1 w.nno [w.nno]))
      ((w.nodes.filter fun p => Scalar p.2).map fun p =>
        sec p.1 (if isI64 p.2 then cNoII1 else cNoD1) [w.nno] [] (scalarPayload (e.order host) p.2)) :=
    em_scalars host e _ _ _ fun p hp =>
      em_scalarV3 host e p _ _ _ _ (by simp) (hn p hp) (by decide) (by decide)
  have h2 : Em (e.order host) (w.nodes.flatMap (vectorV2 host e cv cNoD3 w.nno))
      ((w.nodes.filter fun p => p.2.shape.length = 2).map fun p =>
        sec p.1 cNoD3 [w.nno, 3] [] (f64sBytes (e.order host) (p.2.doubles cv))) :=
    em_shaped host e _ _ _ _ fun p hp =>
      em_f64 host e _ _ _ _ (by simp) _ _ (by simp [hsize]; omega) ⟨⟨hn p hp, by decide⟩, by decide⟩
  have h12 := h1.append h2
  unfold cellChunksV3
  cases ha : w.cells.attrs with
  | none =>
    cases hd : w.cells.data with
    | nil => simpa using h12
    | cons x t =>
      have h3 : Em (e.order host) [Except.error PyErr.attribute]
        (((w.cells.data.filter fun p => Scalar p.2).map fun p =>
          sec p.1 (if isI64 p.2 then cCvII1 else cCvD1) [w.ncv, CellSet.ndof w.cells] []
            (scalarPayload (e.order host) p.2)) ++
        ((w.cells.data.filter fun p => p.2.shape.length = 2).map fun p =>
          sec p.1 cCvD3 [w.ncv, CellSet.ndof w.cells] [] (f64sBytes (e.order host) (p.2.doubles cv))) ++
        ((w.cells.data.filter fun p => p.2.shape.length = 3).map fun p =>
          sec p.1 cCvD33 [w.ncv, CellSet.ndof w.cells, 3] [] (f64sBytes (e.order host) (p.2.doubles cv)))) := by
        refine ⟨Emits.error _ _ _, ?_⟩
        intro s hs
        simp only [List.mem_append, List.mem_map, List.mem_filter] at hs
        rcases hs with (⟨p, ⟨hp, _⟩, rfl⟩ | ⟨p, ⟨hp, _⟩, rfl⟩) | ⟨p, ⟨hp, _⟩, rfl⟩
        · refine ⟨⟨hc p hp, ?_⟩, ?_⟩
          · show (if isI64 p.2 then cCvII1 else cCvD1) ≠ cEof
            split <;> decide
          · show ((if isI64 p.2 then cCvII1 else cCvD1) = cI0 ∨ (if isI64 p.2 then cCvII1 else cCvD1) = cD0) → _
            split <;> exact fun h => absurd h (by decide)
        · exact ⟨⟨hc p hp, by show cCvD3 ≠ cEof; decide⟩,
            fun h => absurd h (by show ¬ (cCvD3 = cI0 ∨ cCvD3 = cD0); decide)⟩
        · exact ⟨⟨hc p hp, by show cCvD33 ≠ cEof; decide⟩,
            fun h => absurd h (by show ¬ (cCvD33 = cI0 ∨ cCvD33 = cD0); decide)⟩
      have := h12.append h3
      rw [hd] at this
      simpa only [List.append_assoc, List.isEmpty_cons, Bool.false_eq_true, if_false] using this
  | some a =>
    have hnd : CellSet.ndof w.cells = a.ndof := by simp [CellSet.ndof, ha]
    have h3 : Em (e.order host)
      (w.cells.data.flatMap (scalarV3 host e cCvD1 cCvII1 (a.ndof * w.ncv).toNat [w.ncv, a.ndof]) ++
      w.cells.data.flatMap (vectorV3 host e cv (a.ndof * w.ncv).toNat [w.ncv, a.ndof]) ++
      w.cells.data.flatMap (tensorV3 host e cv (a.ndof * w.ncv).toNat [w.ncv, a.ndof]))
        (((w.cells.data.filter fun p => Scalar p.2).map fun p =>
          sec p.1 (if isI64 p.2 then cCvII1 else cCvD1) [w.ncv, a.ndof] []
            (scalarPayload (e.order host) p.2)) ++
        ((w.cells.data.filter fun p => p.2.shape.length = 2).map fun p =>
          sec p.1 cCvD3 [w.ncv, a.ndof] [] (f64sBytes (e.order host) (p.2.doubles cv))) ++
        ((w.cells.data.filter fun p => p.2.shape.length = 3).map fun p =>
          sec p.1 cCvD33 [w.ncv, a.ndof, 3] [] (f64sBytes (e.order host) (p.2.doubles cv)))) := by
      refine (Em.append ?_ ?_).append ?_
      · exact em_scalars host e _ _ _ fun p hp =>
          em_scalarV3 host e p _ _ _ _ (by simp) (hc p hp) (by decide) (by decide)
      · exact em_shaped host e _ _ _ _ fun p hp =>
          em_f64 host e _ _ _ _ (by simp) _ _ (by simp [hsize]; omega) ⟨⟨hc p hp, by decide⟩, by decide⟩
      · exact em_shaped host e _ _ _ _ fun p hp =>
          em_f64 host e _ _ _ _ (by simp) _ _ (by simp [hsize]; omega) ⟨⟨hc p hp, by decide⟩, by decide⟩
    rw [hnd]
    have := h12.append h3
    simpa only [List.append_assoc] using this

theorem em_body (v : Ver) (cv : Conv) (w : WState) (hn : NamesOK w) :
    Em (e.order host) (connChunks host e v w ++ infoChunks host e cv w.sim ++
      varChunks host e v cv w) (bodySecs (e.order host) v cv w) := by
  refine ((em_conn host e v w hn.marks).append (em_info host e cv w.sim hn.weights)).append ?_
  cases v
  · exact em_varsV2 host e cv w hn.nodes hn.cells
  · exact em_varsV3 host e cv w hn.nodes hn.cells

end

/-! ## The file -/

theorem runChunks_ok {cs : List (Py Bytes)} {b : Bytes} (h : runChunks cs = (b, .ok ())) :
    ∃ bs : List Bytes, cs = bs.map .ok ∧ b = bs.flatten := by
  induction cs generalizing b with
  | nil => exact ⟨[], rfl, by simpa [runChunks] using h.symm⟩
  | cons c t ih =>
    cases c with
    | error er => simp [runChunks] at h
    | ok x =>
      simp only [runChunks, Prod.mk.injEq] at h
      obtain ⟨bs, h1, h2⟩ := ih (b := (runChunks t).1) (by rw [← h.2])
      exact ⟨x :: bs, by simp [h1], by rw [← h.1, h2]; rfl⟩

theorem runChunks_map (bs : List Bytes) : runChunks (bs.map .ok) = (bs.flatten, .ok ()) := by
  induction bs with
  | nil => rfl
  | cons b t ih => simp [runChunks, ih]

theorem runChunks_error {cs : List (Py Bytes)} {b : Bytes} {er : PyErr} (h : runChunks cs = (b, .error er)) :
    ∃ (bs : List Bytes) (rest : List (Py Bytes)), cs = bs.map .ok ++ .error er :: rest ∧ b = bs.flatten := by
  induction cs generalizing b with
  | nil => simp [runChunks] at h
  | cons c t ih =>
    cases c with
    | error er' =>
      simp only [runChunks, Prod.mk.injEq, Except.error.injEq] at h
      obtain ⟨h1, h2⟩ := h
      subst h1 h2
      exact ⟨[], t, rfl, rfl⟩
    | ok x =>
      simp only [runChunks, Prod.mk.injEq] at h
      obtain ⟨bs, rest, h1, h2⟩ := ih (b := (runChunks t).1) (by rw [← h.2])
      exact ⟨x :: bs, rest, by simp [h1], by rw [← h.1, h2]; rfl⟩

theorem headerChunk_eq (host : Order) (e : Endian) (v : Ver) :
    headerChunk host e v = .ok (intsBytes (e.order host) 4 [magic, v.num]) := by
  have h : structPack host e ([magic, v.num].map .i) = .ok (intsBytes (e.order host) 4 [magic, v.num]) := by
    rw [structPack_const host e 4 _ (by simp [Item.size]), packAll_ints]
    refine ⟨?_, rfl⟩
    intro x hx
    cases v <;> simp [magic, Ver.num] at hx <;> rcases hx with rfl | rfl <;> simp [FitsInt]
  exact h

theorem eof_ok (host : Order) (e : Endian) :
    secHeader host e "EOF" cEof hsize [] = .ok (eofSec.bytes (e.order host)) ∧ SecWF eofSec := by
  have hw : SecWF eofSec := by
    refine ⟨⟨by decide, by simp [FitsInt, eofSec, sec, mkHeader, cEof],
      by simp [FitsInt, eofSec, sec, mkHeader], ⟨by decide, ?_⟩, by decide⟩, rfl, by decide⟩
    intro n hn
    simp [eofSec, sec, mkHeader] at hn
    subst hn
    simp [FitsInt]
  refine ⟨?_, hw⟩
  rw [secHeader]
  refine (write_ok_iff _ _ _ _).2 ⟨hw.header.packable, ?_⟩
  simp [Sec.bytes, eofSec, sec, hsize]

/-- A successful write gives the file of the specification, whose sections are well formed. -/
theorem write_full {host : Order} {e : Endian} {v : Ver} {cv : Conv} {w : WState} {b : Bytes}
    (hn : NamesOK w) (h : runChunks (fileChunks host e v cv w) = (b, .ok ())) :
    b = fileBytes (e.order host) v cv w ∧
      ∀ s ∈ bodySecs (e.order host) v cv w, SecWF s ∧ Passes s := by
  obtain ⟨bs, h1, rfl⟩ := runChunks_ok h
  clear h
  have hb := em_body host e v cv w hn
  unfold fileChunks bodyChunks at h1
  rw [headerChunk_eq, (eof_ok host e).1] at h1
  unfold fileBytes
  generalize eofSec.bytes (e.order host) = E at h1 ⊢
  generalize intsBytes (e.order host) 4 [magic, v.num] = M at h1 ⊢
  have h2 : (Except.ok M : Py Bytes) :: ((connChunks host e v w ++ infoChunks host e cv w.sim ++
      varChunks host e v cv w) ++ [.ok E]) = bs.map .ok := by simpa using h1
  clear h1
  generalize connChunks host e v w ++ infoChunks host e cv w.sim ++ varChunks host e v cv w = C at hb h2
  cases bs with
  | nil => simp at h2
  | cons b0 t =>
    simp only [List.map_cons, List.cons.injEq, Except.ok.injEq] at h2
    obtain ⟨rfl, h2⟩ := h2
    obtain ⟨b1, b2, rfl, e2, e3⟩ := List.append_eq_map_iff.1 h2
    obtain ⟨f, g⟩ := hb.1.full b1 e2.symm
    have e4 : b2 = [E] := by
      obtain ⟨x, y, rfl, e5, e6⟩ := List.map_eq_cons_iff.1 e3
      simp only [List.map_eq_nil_iff] at e6
      simp only [Except.ok.injEq] at e5
      rw [e5, e6]
    subst e4
    refine ⟨by simp [f], ?_⟩
    intro s hs
    exact ⟨(g s hs).wf (hb.2 s hs).1.1, hb.2 s hs⟩

/-- What an interrupted write leaves is the beginning of a list of correct sections, without the
end-of-file section. -/
theorem write_part {host : Order} {e : Endian} {v : Ver} {cv : Conv} {w : WState} {b : Bytes} {er : PyErr}
    (hn : NamesOK w) (h : runChunks (fileChunks host e v cv w) = (b, .error er)) :
    ∃ secs, (∀ s ∈ secs, SecWF s ∧ Passes s) ∧
      b <+: intsBytes (e.order host) 4 [magic, v.num] ++ secsBytes (e.order host) secs := by
  obtain ⟨bs, rest, h1, rfl⟩ := runChunks_error h
  unfold fileChunks bodyChunks at h1
  rw [headerChunk_eq, (eof_ok host e).1] at h1
  simp only [List.append_assoc, List.singleton_append] at h1
  cases bs with
  | nil => simp at h1
  | cons b0 t =>
    simp only [List.map_cons, List.cons_append, List.cons.injEq, Except.ok.injEq] at h1
    obtain ⟨rfl, h2⟩ := h1
    simp only [← List.append_assoc] at h2
    have hb := em_body host e v cv w hn
    have fin : ∃ secs, (∀ s ∈ secs, SecOK s ∧ Passes s) ∧ t.flatten <+: secsBytes (e.order host) secs := by
      rcases List.append_eq_append_iff.1 h2 with ⟨m, h3, h4⟩ | ⟨m, h3, h4⟩
      · -- beyond the body: only the end-of-file header, which is written
        exfalso
        have h5 : .error er :: rest ≠ ([] : List (Py Bytes)) := by simp
        cases m with
        | nil => simp at h4
        | cons x y =>
          simp only [List.cons_append, List.cons.injEq] at h4
          have := h4.2
          cases y <;> simp at this
      · cases m with
        | nil =>
          simp only [List.append_nil] at h3
          obtain ⟨f, g⟩ := hb.1.full t h3
          exact ⟨_, fun s hs => ⟨g s hs, hb.2 s hs⟩, by rw [f]; exact List.prefix_rfl⟩
        | cons x y =>
          simp only [List.cons_append, List.cons.injEq] at h4
          obtain ⟨rfl, _⟩ := h4
          exact hb.1.part t er y h3
    obtain ⟨secs, h3, h4⟩ := fin
    refine ⟨secs, fun s hs => ⟨(h3 s hs).1.wf (h3 s hs).2.1.1, (h3 s hs).2⟩, ?_⟩
    simp only [List.flatten_cons]
    exact (List.prefix_append_right_inj _).2 h4

end Cfd.Ic3
