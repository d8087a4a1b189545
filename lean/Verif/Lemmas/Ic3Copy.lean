import Verif.Spec.Ic3Copy
import Verif.Lemmas.Ic3Accepted
import Verif.Props.Ic3Accept
import Verif.Props.Ic3Writes

/-! Meshes read from any accepted file, for C67. -/

namespace Cfd.Ic3
open Cfd.Spec Cfd.Spec.Ic3

/-- A mark as the reader makes it. -/
structure MarkRead (b : Mark) : Prop where
  name : UserName b.name
  type : b.type ∈ type2zonekind.keys
  geodim : b.geodim = if b.type = "internal" then .intface else .bdface
  index : ∃ a c, b.index = .range a c ∧ FitsInt 8 c
  perio : ∃ r, b.perio = some r ∧ r.length = 16

theorem zonekind_mem {k : Int} {t : String} (h : zonekind2type.getE k = .ok t) : t ∈ type2zonekind.keys := by
  unfold Dict.getE at h
  split at h
  · simp only [Except.ok.injEq] at h
    subst h
    rename_i hx
    have := Dict.mem_of_get? hx
    obtain ⟨q, hq, e⟩ := List.mem_map.1 this
    simp only [Prod.mk.injEq] at e
    rw [← e.2]
    exact List.mem_map_of_mem hq
  · simp at h

theorem zoneStep_read {z : Csr} {l l' : List Mark} {h : Header} {p k : Nat} {c : Bool} (hh : ReadHeader h)
    (hl : ∀ b ∈ l, MarkRead b) (hst : zoneStep z l h p = .ok (l', k, c)) : ∀ b ∈ l', MarkRead b := by
  unfold zoneStep at hst
  obtain ⟨t, ht, hst⟩ := bind_eq_ok.1 hst
  obtain ⟨_, _, hst⟩ := bind_eq_ok.1 hst
  simp only [Except_pure, Except.ok.injEq, Prod.mk.injEq] at hst
  obtain ⟨rfl, _, _⟩ := hst
  intro b hb
  rcases List.mem_append.1 hb with hb | hb
  · exact hl b hb
  · rw [List.mem_singleton] at hb
    subst hb
    exact ⟨hh.name, zonekind_mem ht, rfl, ⟨_, _, rfl, hh.int 2⟩, ⟨_, rfl, hh.reals⟩⟩

/-- A parameter as the reader makes it. -/
def ParamRead (p : String × SimVal) : Prop :=
  (p.2 = .wgts [] ∧ p.1 = "wgt") ∨ (∃ n, p.2 = .int n ∧ (p.1 = "step" → FitsInt 8 n)) ∨ ∃ x, p.2 = .f64 x

theorem infoStep_read {s s' : Dict String SimVal} {h : Header} {p k : Nat} {c : Bool} (hh : ReadHeader h)
    (hs : ∀ q ∈ s, ParamRead q) (hst : infoStep s h p = .ok (s', k, c)) : ∀ q ∈ s', ParamRead q := by
  unfold infoStep at hst
  split at hst
  all_goals
    simp only [Except.ok.injEq, Prod.mk.injEq] at hst
    obtain ⟨rfl, _, _⟩ := hst
    intro q hq
    rcases mem_set hq with rfl | hq
    · first
      | exact Or.inr (Or.inl ⟨_, rfl, fun _ => hh.int 0⟩)
      | exact Or.inr (Or.inr ⟨_, rfl⟩)
    · exact hs q hq

theorem readInfo_read {file : Bytes} {o : Order} {s : Dict String SimVal} (hf : 0 < file.length)
    (h : readInfo file o = .ok s) : ∀ q ∈ s, ParamRead q := by
  unfold readInfo at h
  obtain ⟨q, hq, hP⟩ := sectionLoop_inv (P := fun _ s => ∀ q ∈ s, ParamRead q) hf
    (fun pos s h p s' k c hP hp hpl hh _ hst => infoStep_read hh hP hst) 8 _ s (by
      intro q hq
      simp only [List.mem_cons, List.not_mem_nil, or_false] at hq
      rcases hq with rfl | rfl | rfl | rfl
      · exact Or.inr (Or.inl ⟨0, rfl, fun _ => by decide⟩)
      · exact Or.inr (Or.inl ⟨0, rfl, fun h => absurd h (by decide)⟩)
      · exact Or.inr (Or.inl ⟨0, rfl, fun h => absurd h (by decide)⟩)
      · exact Or.inl ⟨rfl, rfl⟩) h
  exact hP

theorem foldl_set_mem {K V : Type} [DecidableEq K] {P : K × V → Prop} (l : List (K × V)) (d : Dict K V)
    (hd : ∀ q ∈ d, P q) (hl : ∀ q ∈ l, P q) : ∀ q ∈ l.foldl (fun (d : Dict K V) p => d.set p.1 p.2) d, P q := by
  induction l generalizing d with
  | nil => exact hd
  | cons a t ih =>
    refine ih _ ?_ (fun q hq => hl q (List.mem_cons_of_mem _ hq))
    intro q hq
    rcases mem_set hq with rfl | hq
    · exact hl a List.mem_cons_self
    · exact hd q hq

theorem foldl_marks {l : List Mark} (hl : ∀ b ∈ l, MarkRead b) (d : Dict String Mark)
    (hd : ∀ q ∈ d, q.2.name = q.1 ∧ MarkRead q.2) :
    ∀ q ∈ l.foldl (fun (d : Dict String Mark) b => d.set b.name b) d, q.2.name = q.1 ∧ MarkRead q.2 := by
  induction l generalizing d with
  | nil => exact hd
  | cons a t ih =>
    refine ih (fun b hb => hl b (List.mem_cons_of_mem _ hb)) _ ?_
    intro q hq
    rcases mem_set hq with rfl | hq
    · exact ⟨rfl, hl a List.mem_cons_self⟩
    · exact hd q hq

/-- Everything the reader guarantees. -/
structure Accepted (f : FullMesh) (l : List Face) : Prop where
  faces : ∃ fs, f.mesh.faces = [("mixed", fs)] ∧ IsFaces fs l
  count : f.mesh.nface = l.length
  widths : ∀ a ∈ l, 1 ≤ a.1.length ∧ a.1.length ≤ 4
  cells : ∀ a ∈ l, a.2.1 < f.mesh.ncell ∧ a.2.2 < f.mesh.ncell
  last : ∃ a ∈ l, a.2.1 = (f.mesh.ncell : Int) - 1 ∨ a.2.2 = (f.mesh.ncell : Int) - 1
  coords : ∃ x y z, f.mesh.coords = some (x, y, z) ∧ x.length = f.mesh.nnode ∧ y.length = f.mesh.nnode ∧
    z.length = f.mesh.nnode
  markKeys : f.mesh.bocos.keys.Nodup
  numbers : ∀ x ∈ l, (∀ n ∈ x.1, FitsInt 4 n) ∧ FitsInt 4 x.2.1 ∧ FitsInt 4 x.2.2
  marks : ∀ p ∈ f.mesh.bocos, p.2.name = p.1 ∧ MarkRead p.2
  part : ∃ n icv, f.partition = some (some ⟨some n, icv⟩) ∧ FitsInt 8 n ∧
    ∀ l, icv = .arr l → l.length = f.mesh.ncell ∧ ∀ n ∈ l, FitsInt 4 n
  params : ∀ p ∈ f.params, ParamRead p
  vars : ∃ version a, f.cells.attrs = some a ∧
    VarsRead version f.mesh.nnode f.mesh.nface f.mesh.ncell ⟨a, f.cells.data, f.nodes, [], []⟩

theorem pairs_mem : ∀ (l : List Int), ∀ q ∈ pairs l, q.1 ∈ l ∧ q.2 ∈ l
  | [], q, h => by simp [pairs] at h
  | [_], q, h => by simp [pairs] at h
  | a :: b :: t, q, h => by
    simp only [pairs, List.mem_cons] at h
    rcases h with rfl | h
    · simp
    · have := pairs_mem t q h
      simp [this.1, this.2]

theorem readNoofa_fit {file : Bytes} {o : Order} {fa noofa : Int} {z : Csr} (h : readNoofa file o fa noofa = .ok z) :
    ∀ n ∈ z.value, FitsInt 4 n := by
  unfold readNoofa at h
  obtain ⟨⟨hd, p⟩, _, h⟩ := bind_eq_ok.1 h
  obtain ⟨_, _, h⟩ := bind_eq_ok.1 h
  obtain ⟨_, _, h⟩ := bind_eq_ok.1 h
  obtain ⟨r, hr, h⟩ := bind_eq_ok.1 h
  obtain ⟨nno, hn, h⟩ := bind_eq_ok.1 h
  obtain ⟨a, _, h⟩ := bind_eq_ok.1 h
  obtain ⟨b, _, h⟩ := bind_eq_ok.1 h
  obtain ⟨_, _, h⟩ := bind_eq_ok.1 h
  obtain ⟨r2, hr2, h⟩ := bind_eq_ok.1 h
  obtain ⟨v, hv, h⟩ := bind_eq_ok.1 h
  obtain ⟨_, _, h⟩ := bind_eq_ok.1 h
  simp only [Except_pure, Except.ok.injEq] at h
  subst h
  have e := orRaise_ok hv
  subst e
  exact (readI32_fit hr2).2.2

theorem readCvofa_fit {file : Bytes} {o : Order} {fa cv : Int} {rows : List (Int × Int)} {p : Nat}
    (h : readCvofa file o fa cv = .ok (rows, p)) : ∀ q ∈ rows, FitsInt 4 q.1 ∧ FitsInt 4 q.2 := by
  unfold readCvofa at h
  obtain ⟨⟨hd, p⟩, _, h⟩ := bind_eq_ok.1 h
  obtain ⟨_, _, h⟩ := bind_eq_ok.1 h
  obtain ⟨_, _, h⟩ := bind_eq_ok.1 h
  obtain ⟨r, hr, h⟩ := bind_eq_ok.1 h
  obtain ⟨l, hl, h⟩ := bind_eq_ok.1 h
  have e := orRaise_ok hl
  subst e
  have hfit := (readI32_fit hr).2.2
  simp only [orRaise, Except_bind_ok] at h
  split at h
  · exact absurd h (by simp)
  · obtain ⟨_, _, h⟩ := bind_eq_ok.1 h
    obtain ⟨_, ha, h⟩ := bind_eq_ok.1 h
    simp only [Except_pure, Except.ok.injEq, Prod.mk.injEq] at h
    obtain ⟨rfl, _⟩ := h
    intro q hq
    have := pairs_mem l q hq
    exact ⟨hfit _ this.1, hfit _ this.2⟩

theorem readPart_fit {file : Bytes} {o : Order} {cv n : Int} {icv : Icv} (h : readPart file o cv = .ok (n, icv)) :
    0 ≤ cv ∧ FitsInt 8 n ∧ ∀ l, icv = .arr l → l.length = cv.toNat ∧ ∀ n ∈ l, FitsInt 4 n := by
  unfold readPart at h
  obtain ⟨⟨hd, p⟩, hsc, h⟩ := bind_eq_ok.1 h
  obtain ⟨r, hr, h⟩ := bind_eq_ok.1 h
  simp only [Except_pure, Except.ok.injEq, Prod.mk.injEq] at h
  obtain ⟨rfl, rfl⟩ := h
  have hcv : 0 ≤ cv := by
    unfold readI32 at hr
    obtain ⟨k, hk, _⟩ := bind_eq_ok.1 hr
    unfold formatCount at hk
    split at hk
    · simp at hk
    · omega
  have hh : ReadHeader hd := by
    unfold scanReq at hsc
    obtain ⟨x, hx, hsc⟩ := bind_eq_ok.1 hsc
    cases x with
    | absent _ => simp at hsc
    | found h' p' =>
      simp only [Except_pure, Except.ok.injEq, Prod.mk.injEq] at hsc
      obtain ⟨rfl, rfl⟩ := hsc
      exact (scan_found_read hx).1
  refine ⟨hcv, hh.int 1, ?_⟩
  intro l hl
  cases r with
  | none => simp at hl
  | some l' =>
    simp only [Icv.arr.injEq] at hl
    subst hl
    exact (readI32_fit hr).2

theorem readCoords_nonneg {file : Bytes} {o : Order} {no : Int} {c : List (F64 × F64 × F64)}
    (h : readCoords file o no = .ok c) : 0 ≤ no := by
  unfold readCoords at h
  obtain ⟨⟨hd, p⟩, _, h⟩ := bind_eq_ok.1 h
  obtain ⟨_, _, h⟩ := bind_eq_ok.1 h
  obtain ⟨_, _, h⟩ := bind_eq_ok.1 h
  obtain ⟨r, hr, h⟩ := bind_eq_ok.1 h
  have := (readF64_count hr).1
  omega

/-- What the reader guarantees, for every accepted file. -/
theorem accepted {integ : Bool} {file : Bytes} {f : FullMesh} (h : readIc3 integ file = .ok f) :
    ∃ l, Accepted f l := by
  unfold readIc3 readData at h
  obtain ⟨r, hr, h⟩ := bind_eq_ok.1 h
  obtain ⟨⟨o, ver⟩, hrh, hr⟩ := bind_eq_ok.1 hr
  obtain ⟨m, hm, hr⟩ := bind_eq_ok.1 hr
  obtain ⟨sim, hsim, hr⟩ := bind_eq_ok.1 hr
  obtain ⟨vars, hvars, hr⟩ := bind_eq_ok.1 hr
  simp only [Except_pure, Except.ok.injEq] at hr
  subst hr
  have hlen : 0 < file.length := by
    unfold readRestartHeader at hrh
    split at hrh
    · simp at hrh
    · rename_i b hb
      have := readAt_length hb (by decide)
      omega
  unfold readConnectivity at hm
  obtain ⟨⟨hd, p0⟩, _, hm⟩ := bind_eq_ok.1 hm
  simp only at hm
  have key : ∀ (m' : RMesh), (do
      let csr ← readNoofa file o (hd.int 1) (hd.int 3)
      let (cvofa, p) ← readCvofa file o (hd.int 1) (hd.int 2)
      let bocos ← sectionLoop file o [cFaZone] (zoneStep csr) p []
      let (npart, icv) ← readPart file o (hd.int 2)
      let coords ← readCoords file o (hd.int 0)
      return (⟨hd.int 0, hd.int 1, hd.int 2, hd.int 3, csr, cvofa, bocos, npart, icv, coords⟩ : RMesh)) = .ok m' →
      ∃ csr cvofa p bocos npart icv coords, readNoofa file o (hd.int 1) (hd.int 3) = .ok csr ∧
        readCvofa file o (hd.int 1) (hd.int 2) = .ok (cvofa, p) ∧
        sectionLoop file o [cFaZone] (zoneStep csr) p [] = .ok bocos ∧ readPart file o (hd.int 2) = .ok (npart, icv) ∧
        readCoords file o (hd.int 0) = .ok coords ∧
        m' = ⟨hd.int 0, hd.int 1, hd.int 2, hd.int 3, csr, cvofa, bocos, npart, icv, coords⟩ := by
    intro m' hm
    obtain ⟨csr, h1, hm⟩ := bind_eq_ok.1 hm
    obtain ⟨⟨cvofa, p⟩, h2, hm⟩ := bind_eq_ok.1 hm
    obtain ⟨bocos, h3, hm⟩ := bind_eq_ok.1 hm
    obtain ⟨⟨npart, icv⟩, h4, hm⟩ := bind_eq_ok.1 hm
    obtain ⟨coords, h5, hm⟩ := bind_eq_ok.1 hm
    simp only [Except_pure, Except.ok.injEq] at hm
    exact ⟨csr, cvofa, p, bocos, npart, icv, coords, h1, h2, h3, h4, h5, hm.symm⟩
  have hm2 : ∃ csr cvofa p bocos npart icv coords, readNoofa file o (hd.int 1) (hd.int 3) = .ok csr ∧
        readCvofa file o (hd.int 1) (hd.int 2) = .ok (cvofa, p) ∧
        sectionLoop file o [cFaZone] (zoneStep csr) p [] = .ok bocos ∧ readPart file o (hd.int 2) = .ok (npart, icv) ∧
        readCoords file o (hd.int 0) = .ok coords ∧
        m = ⟨hd.int 0, hd.int 1, hd.int 2, hd.int 3, csr, cvofa, bocos, npart, icv, coords⟩ := by
    split at hm
    · obtain ⟨_, _, hm⟩ := bind_eq_ok.1 hm
      exact key m hm
    · exact key m hm
  obtain ⟨csr, cvofa, p, bocos, npart, icv, coords, hcsr, hcv, hbo, hpa, hco, rfl⟩ := hm2
  unfold exportMesh at h
  simp only at h
  obtain ⟨m1, h1, h⟩ := bind_eq_ok.1 h
  obtain ⟨c, hc, h⟩ := bind_eq_ok.1 h
  obtain ⟨m2, h2, h⟩ := bind_eq_ok.1 h
  simp only [Except_pure, Except.ok.injEq] at h
  subst h
  obtain ⟨hfa, nno, hl, hi, _, hck⟩ := readNoofa_inv hcsr
  obtain ⟨hrl, hle, hlast⟩ := readCvofa_inv hcv
  obtain ⟨hcv0, hnp, hicv⟩ := readPart_fit hpa
  have hno := readCoords_nonneg hco
  obtain ⟨fs, l, x, y, z, e1, e2, e3, e4, e5, e6, e7, e8, e9, e10, e11, e12, e13⟩ :=
    export_values hi hck (by omega) hle hlast h1 hc h2 rfl
  have hsizes : (bocos.foldl Mesh.addBoco m2).ncell = (hd.int 2).toNat ∧
      (bocos.foldl Mesh.addBoco m2).nnode = (hd.int 0).toNat ∧ m2.bocos = [] := by
    unfold Mesh.setCoordsNd at h1
    obtain ⟨_, _, h1⟩ := bind_eq_ok.1 h1
    simp only [Except_pure, Except.ok.injEq] at h1
    subst h1
    unfold Mesh.addFaces at h2
    rw [if_pos (by simp [Mesh.faceKinds])] at h2
    simp only [Except.ok.injEq] at h2
    rw [← h2, foldl_addBoco]
    exact ⟨rfl, rfl, rfl⟩
  obtain ⟨s1, s2, s3⟩ := hsizes
  have hlastq : ∃ a ∈ l, a.2.1 = ((bocos.foldl Mesh.addBoco m2).ncell : Int) - 1 ∨
      a.2.2 = ((bocos.foldl Mesh.addBoco m2).ncell : Int) - 1 := by
    obtain ⟨q, hq, hv⟩ := hlast
    rw [← e13] at hq
    obtain ⟨a, ha, rfl⟩ := List.mem_map.1 hq
    rw [s1, Int.toNat_of_nonneg hcv0]
    exact ⟨a, ha, hv⟩
  have hmk : ∀ b ∈ bocos, MarkRead b := by
    obtain ⟨q, _, hP⟩ := sectionLoop_inv (P := fun _ (s : List Mark) => ∀ b ∈ s, MarkRead b) hlen
      (fun pos s h p s' k c hP hp hpl hh _ hst => zoneStep_read hh hP hst) p [] bocos (by simp) hbo
    exact hP
  have hnf : ((bocos.foldl Mesh.addBoco m2).nface : Int) = hd.int 1 := by
    have := congrArg List.length e13
    rw [List.length_map] at this
    rw [e3, this, hrl, Int.toNat_of_nonneg hfa]
  refine ⟨l, ⟨⟨fs, e1, e2⟩, e3, e4, e5, hlastq, ⟨x, y, z, e7, e8, e9, e10⟩, e11, ?_, ?_, ?_, ?_, ?_⟩⟩
  · intro a ha
    have q2 : a.2 ∈ cvofa := by rw [← e13]; exact List.mem_map_of_mem ha
    exact ⟨fun n hn => readNoofa_fit hcsr n (e12 a ha n hn), readCvofa_fit hcv _ q2⟩
  · show ∀ p ∈ (bocos.foldl Mesh.addBoco m2).bocos, _
    rw [foldl_addBoco]
    exact foldl_marks hmk _ (by simp [s3])
  · refine ⟨npart, icv, rfl, hnp, fun l hl => ?_⟩
    show _ = (bocos.foldl Mesh.addBoco m2).ncell ∧ _
    rw [s1]
    exact hicv l hl
  · refine foldl_set_mem _ _ ?_ (readInfo_read hlen hsim)
    intro q hq
    unfold paramsOf at hq
    simp only [List.mem_cons, List.not_mem_nil, or_false] at hq
    rcases hq with rfl | rfl | rfl | rfl | rfl | rfl | rfl <;>
      exact Or.inr (Or.inl ⟨_, rfl, fun h => absurd h (by simp)⟩)
  · refine ⟨ver, vars.attrs, rfl, ?_⟩
    have hv := readVars_read hcv0 hlen hvars
    show VarsRead ver ((bocos.foldl Mesh.addBoco m2).nnode : Int) ((bocos.foldl Mesh.addBoco m2).nface : Int)
      ((bocos.foldl Mesh.addBoco m2).ncell : Int) _
    rw [s1, s2, hnf, Int.toNat_of_nonneg hno, Int.toNat_of_nonneg hcv0]
    exact ⟨hv.nodeKeys, hv.cellKeys, hv.nodeNames, hv.cellNames, hv.nodes, hv.cells, hv.ndof⟩

end Cfd.Ic3
