import Verif.Lemmas.Ic3ForeignRead
import Verif.Props.Ic3Format

/-! Files that tell the same are read as the same mesh. -/

namespace Cfd.Ic3
open Spec Spec.Ic3

theorem first_only {code : Int} {K : List Int} (h : code ∈ K) (l : List Sec) : first code (only K l) = first code l := by
  unfold first only
  rw [List.find?_filter]
  refine congrArg (fun p => List.find? p l) (funext fun s => ?_)
  by_cases e : s.h.id = code
  · simp [e, h]
  · simp [e]

theorem only_only {C K : List Int} (h : ∀ c ∈ C, c ∈ K) (l : List Sec) : only C (only K l) = only C l := by
  unfold only
  rw [List.filter_filter]
  refine List.filter_congr fun s _ => ?_
  by_cases e : s.h.id ∈ C
  · simp [e, h _ e]
  · simp [e]

theorem after_only {code : Int} {K : List Int} (h : code ∈ K) (l : List Sec) :
    after code (only K l) = only K (after code l) := by
  induction l with
  | nil => rfl
  | cons s t ih =>
    by_cases e : s.h.id = code
    · have hk : s.h.id ∈ K := e ▸ h
      simp [after, only, e, hk, h]
    · have h1 : after code (s :: t) = after code t := by simp [after, e]
      rw [h1]
      by_cases hk : s.h.id ∈ K
      · have h2 : only K (s :: t) = s :: only K t := by simp [only, hk]
        rw [h2, ← ih]
        simp [after, e]
      · have h2 : only K (s :: t) = only K t := by simp [only, hk]
        rw [h2, ih]

theorem countsOf_congr {l l' : List Sec} (h : first 10 l = first 10 l') : countsOf l = countsOf l' := by
  unfold countsOf; rw [h]

theorem readRestart_fileOf (o : Order) {ver : Int} (hv : FitsInt 4 ver) (l : List Sec) (last : Header) (t : Bytes) :
    readRestartHeader (fileOf o ver l last t) = .ok (o, ver) := by
  obtain ⟨b, k1, _, k3⟩ := C26_detects_partial o .native ver hv (secsBytes o l ++ (hdrBytes o last ++ t))
  rw [show (123581321 : Int) = magic from rfl, packFirst o .native ver hv] at k1
  simp only [Except.ok.injEq] at k1
  rw [← k1] at k3
  exact k3

theorem holds_fileOf (o : Order) (ver : Int) (l : List Sec) {last : Header} (he : IsEnd last) (t : Bytes) :
    Holds (fileOf o ver l last t) o 8 l :=
  ⟨last, t, he, _, rfl, by simp⟩

theorem connOf_counts {integ : Bool} {o : Order} {l : List Sec} {m : RMesh} (h : connOf integ o l = .ok m) :
    ∃ s, first 10 l = some s ∧ m.no = s.h.int 0 ∧ m.fa = s.h.int 1 ∧ m.cv = s.h.int 2 ∧ m.noofa = s.h.int 3 := by
  unfold connOf at h
  obtain ⟨s, hs, h⟩ := bind_eq_ok.1 h
  have e : first 10 l = some s := by
    unfold req at hs
    rw [show first cCounts l = first 10 l from rfl] at hs
    revert hs
    cases first 10 l with
    | none => simp [orRaise]
    | some x => simp only [orRaise, Except.ok.injEq, Option.some.injEq, imp_self]
  have fin : ∀ {m : RMesh}, (do
      let csr ← req (first cNoofa l) >>= fun s' => noofaOf o s' (s.h.int 1) (s.h.int 3)
      let cvofa ← req (first cCvofa l) >>= fun s' => cvofaOf o s' (s.h.int 1) (s.h.int 2)
      let bocos ← zonesRead csr (after cCvofa l)
      let (npart, icv) ← req (first cCvPart l) >>= fun s' => partOf o s' (s.h.int 2)
      let coords ← req (first cXno l) >>= fun s' => coordsOf o s' (s.h.int 0)
      return (⟨s.h.int 0, s.h.int 1, s.h.int 2, s.h.int 3, csr, cvofa, bocos, npart, icv, coords⟩ : RMesh)) = .ok m →
      m.no = s.h.int 0 ∧ m.fa = s.h.int 1 ∧ m.cv = s.h.int 2 ∧ m.noofa = s.h.int 3 := by
    intro m hm
    obtain ⟨_, _, hm⟩ := bind_eq_ok.1 hm
    obtain ⟨_, _, hm⟩ := bind_eq_ok.1 hm
    obtain ⟨_, _, hm⟩ := bind_eq_ok.1 hm
    obtain ⟨_, _, hm⟩ := bind_eq_ok.1 hm
    obtain ⟨_, _, hm⟩ := bind_eq_ok.1 hm
    simp only [Except_pure, Except.ok.injEq] at hm
    subst hm
    exact ⟨rfl, rfl, rfl, rfl⟩
  refine ⟨s, e, ?_⟩
  cases integ
  · simp only [Bool.false_eq_true, if_false] at h
    exact fin h
  · simp only [if_true] at h
    obtain ⟨_, _, h⟩ := bind_eq_ok.1 h
    exact fin h

/-- What is read from a file is given by its sections. -/
theorem readIc3_of (integ : Bool) (o : Order) {ver : Int} (hv : FitsInt 4 ver) {l : List Sec} (hs : Sections ver l)
    {last : Header} (he : IsEnd last) (t : Bytes) :
    readIc3 integ (fileOf o ver l last t) = readOf integ o ver l := by
  have hH := holds_fileOf o ver l he t
  have hl : Going l := fun s hm => ⟨hs.wf s hm, hs.going s hm⟩
  unfold readIc3 readData readOf
  rw [readRestart_fileOf o hv]
  simp only [Except_bind_ok]
  rw [readConnectivity_of integ hs hH]
  cases hc : connOf integ o l with
  | error e => rfl
  | ok m =>
    obtain ⟨s, h1, h2, h3, h4, h5⟩ := connOf_counts hc
    have hz : ∀ s ∈ l, Sized ver ⟨m.no, m.fa, m.cv, m.noofa⟩ s := by
      have : countsOf l = ⟨m.no, m.fa, m.cv, m.noofa⟩ := by
        unfold countsOf; rw [h1, h2, h3, h4, h5]
      rw [← this]
      exact hs.sizes
    simp only [Except_bind_ok]
    rw [readInfo_of hl hH hz]
    cases runLoop (fun st s => infoStep st s.h 0) (only [cI0, cD0] l)
        [("step", .int 0), ("dt", .int 0), ("time", .int 0), ("wgt", .wgts [])] with
    | error e => rfl
    | ok sim =>
      simp only [Except_bind_ok]
      rw [readVars_of hl hH hz]
      cases varsOf o ver m.no m.fa m.cv l <;> rfl

theorem connOf_same (integ : Bool) (o : Order) {l l' : List Sec} (h : Same l l') : connOf integ o l = connOf integ o l' := by
  have f := fun code hc => h.one code hc
  unfold connOf integrityOf zonesRead
  rw [show first cCounts l = first cCounts l' from f 10 (by decide), show first cNoofa l = first cNoofa l' from f 21 (by decide),
    show first cCvofa l = first cCvofa l' from f 22 (by decide), show first cCvPart l = first cCvPart l' from f 41 (by decide),
    show first cXno l = first cXno l' from f 31 (by decide), show first cNoCheck l = first cNoCheck l' from f 30 (by decide),
    show first cFaCheck l = first cFaCheck l' from f 20 (by decide), show first cCvCheck l = first cCvCheck l' from f 40 (by decide),
    show only [cFaZone] (after cCvofa l) = only [cFaZone] (after cCvofa l') from h.zones]

theorem only_scalars {l : List Sec} : only [cNoD1, cNoII1, cFaD1, cCvD1, cCvII1] l = only [32, 34, 24, 42, 45] l := rfl

theorem readOf_same (integ : Bool) (o : Order) (ver : Int) {l l' : List Sec} (h : Same l l') :
    readOf integ o ver l = readOf integ o ver l' := by
  unfold readOf varsOf
  rw [connOf_same integ o h, show only [cI0, cD0] l = only [cI0, cD0] l' from h.params,
    show only [cNoD1, cNoII1, cFaD1, cCvD1, cCvII1] l = only [cNoD1, cNoII1, cFaD1, cCvD1, cCvII1] l' from h.scalars,
    show only [cNoD3, cFaD3, cCvD3] l = only [cNoD3, cFaD3, cCvD3] l' from h.vectors,
    show only [cCvD33] l = only [cCvD33] l' from h.tensors]

end Cfd.Ic3
