import Verif.Lemmas.Ic3Round
import Verif.Spec.Ic3V4

/-! Lemmas on the IC3 V4 files. -/

namespace Cfd.Ic3
open Spec Spec.Ic3 ElemConn

theorem mapM_keep {f : Int → Py Int} {l : List Int} (h : ∀ n ∈ l, f n = .ok n) : l.mapM f = .ok l := by
  have := mapM_ok_of_forall (f := f) (g := id) (l := l) h
  rwa [List.map_id] at this

theorem h5label_of_fits {s : String} (h1 : s.length ≤ 128) (h2 : s.toList.getLast? ≠ some '\x00') :
    h5label s = s := by
  unfold h5label
  rw [List.take_of_length_le (by rw [String.length_toList]; exact h1)]
  have : s.toList.reverse.dropWhile (fun c => decide (c = '\x00')) = s.toList.reverse := by
    rw [← List.head?_reverse] at h2
    cases hr : s.toList.reverse with
    | nil => rfl
    | cons c t =>
        rw [hr] at h2
        have : ¬ c = '\x00' := by simpa using h2
        simp [List.dropWhile_cons, this]
  rw [this, List.reverse_reverse, String.ofList_toList]

/-- What is written of a mark. -/
def zoneTriple (p : String × Mark) : Int × String × Int :=
  ((markRange p.2).1, p.1, (type2zonekind.get? p.2.type).getD 0)

theorem zoneV4_ok {p : String × Mark} {z : (Int × String × Int) × Option (List F64)} (h : zoneV4 p = .ok z) :
    z = (zoneTriple p, p.2.perio.map (List.take 3)) ∧ (∃ k, type2zonekind.get? p.2.type = some k) ∧
      p.1 = p.2.name ∧ ∃ a b, p.2.index = .range a b := by
  unfold zoneV4 at h
  simp only [bind_eq_ok, pyAssert_eq_ok, decide_eq_true_eq] at h
  obtain ⟨_, h1, _, _, _, h3, h⟩ := h
  obtain ⟨k, hk⟩ := Dict.mem_keys_iff.1 h3
  cases hi : p.2.index with
  | unset => rw [hi] at h; simp at h
  | list l => rw [hi] at h; simp at h
  | range a b =>
      rw [hi] at h
      simp only [Dict.getE, hk, Except_bind_ok] at h
      refine ⟨?_, ⟨k, hk⟩, h1, a, b, rfl⟩
      cases hp : p.2.perio with
      | none =>
          rw [hp] at h
          simp only [Except_pure, Except.ok.injEq] at h
          rw [← h]
          simp [zoneTriple, markRange, hi, hk]
      | some pt =>
          rw [hp] at h
          simp only at h
          split at h
          · simp at h
          · simp only [Except_pure, Except.ok.injEq] at h
            rw [← h]
            simp [zoneTriple, markRange, hi, hk]

theorem zoneV4_all {d : Dict String Mark} {zs : List ((Int × String × Int) × Option (List F64))}
    (h : d.mapM zoneV4 = .ok zs) :
    zs = d.map (fun p => (zoneTriple p, p.2.perio.map (List.take 3))) ∧
      ∀ p ∈ d, (∃ k, type2zonekind.get? p.2.type = some k) ∧ p.1 = p.2.name ∧ ∃ a b, p.2.index = .range a b := by
  induction d generalizing zs with
  | nil => simp only [List.mapM_nil, Except_pure, Except.ok.injEq] at h; subst h; simp
  | cons p t ih =>
      simp only [List.mapM_cons, bind_eq_ok, Except_pure, Except.ok.injEq] at h
      obtain ⟨z, hz, zs', hzs, rfl⟩ := h
      obtain ⟨e1, e2⟩ := zoneV4_ok hz
      obtain ⟨i1, i2⟩ := ih hzs
      refine ⟨by rw [e1, i1]; rfl, ?_⟩
      intro q hq
      rcases List.mem_cons.1 hq with rfl | hq
      · exact e2
      · exact i2 q hq

/-- Periodic data written. -/
def perioOf (d : Dict String Mark) : Dict String (List F64) :=
  d.filterMap fun p => (p.2.perio.map (List.take 3)).map fun q => (p.1, q)

theorem perioOf_keys (d : Dict String Mark) : ∀ k ∈ (perioOf d).keys, k ∈ d.keys := by
  intro k hk
  obtain ⟨p, hp, rfl⟩ := List.mem_map.1 hk
  obtain ⟨q, hq, he⟩ := List.mem_filterMap.1 hp
  obtain ⟨x, _, rfl⟩ := Option.map_eq_some_iff.1 he
  exact List.mem_map.2 ⟨q, hq, rfl⟩

theorem perioOf_get {d : Dict String Mark} (hd : d.keys.Nodup) {p : String × Mark} (hp : p ∈ d) :
    (perioOf d).get? p.1 = p.2.perio.map (List.take 3) := by
  induction d with
  | nil => simp at hp
  | cons q t ih =>
      have hd' : q.1 ∉ Dict.keys t ∧ (Dict.keys t).Nodup := List.nodup_cons.1 hd
      rcases List.mem_cons.1 hp with rfl | hp
      · cases hx : p.2.perio with
        | none =>
            have e : perioOf (p :: t) = perioOf t := by simp [perioOf, hx]
            rw [e, Option.map_none, Dict.get?_eq_none_iff]
            exact fun h => hd'.1 (perioOf_keys t _ h)
        | some x =>
            have e : perioOf (p :: t) = (p.1, x.take 3) :: perioOf t := by simp [perioOf, hx]
            rw [e]
            simp [Dict.get?]
      · have hne : q.1 ≠ p.1 := fun h => hd'.1 (h ▸ List.mem_map.2 ⟨p, hp, rfl⟩)
        rw [← ih hd'.2 hp]
        cases hx : q.2.perio with
        | none =>
            have e : perioOf (q :: t) = perioOf t := by simp [perioOf, hx]
            rw [e]
        | some x =>
            have e : perioOf (q :: t) = (q.1, x.take 3) :: perioOf t := by simp [perioOf, hx]
            rw [e]
            simp [Dict.get?, hne]

/-- Zones written, in the order of the file. -/
def sortedZones (w : WState) : List (Int × String × Int) :=
  sortZones (w.bocos.map zoneTriple ++ [(lastBoco w.bocos + 1, "internal-domain", 6)])

theorem zonesV4_ok {w : WState} {r : List (Int × String × Int) × Dict String (List F64)}
    (h : zonesV4 w = .ok r) :
    r = (sortedZones w, perioOf w.bocos) ∧
      ∀ p ∈ w.bocos, (∃ k, type2zonekind.get? p.2.type = some k) ∧ p.1 = p.2.name ∧
        ∃ a b, p.2.index = .range a b := by
  unfold zonesV4 at h
  simp only [bind_eq_ok] at h
  obtain ⟨zs, hzs, h⟩ := h
  obtain ⟨e1, e2⟩ := zoneV4_all hzs
  refine ⟨?_, e2⟩
  split at h
  · simp at h
  · simp only [Except_pure, Except.ok.injEq] at h
    rw [← h, e1]
    simp only [sortedZones, perioOf, List.map_map, List.filterMap_map, Prod.mk.injEq]
    exact ⟨rfl, rfl⟩

theorem sortZones_perm (l : List (Int × String × Int)) : (sortZones l).Perm l := List.perm_insertionSort _ _

theorem sortZones_sorted (l : List (Int × String × Int)) : (sortZones l).Pairwise fun a b => a.1 ≤ b.1 := by
  have : Std.Total (α := Int × String × Int) fun a b => a.1 ≤ b.1 := ⟨fun a b => le_total a.1 b.1⟩
  have : IsTrans (Int × String × Int) fun a b => a.1 ≤ b.1 := ⟨fun a b c h1 h2 => le_trans h1 h2⟩
  exact List.pairwise_insertionSort _ _

/-- The mesh file written. -/
def fileV4 (m : Mesh F64) (w : WState) : MeshFile where
  no := w.nno
  fa := w.nfa
  cv := w.ncv
  coordinates := w.coords.flatMap fun p => [p.1, p.2.1, p.2.2]
  cells := cellTables m
  cvofa := (WState.rows w).flatMap fun r => [r.1, r.2]
  noofaI := w.noofa
  noofaV := w.noofaV
  labels := (sortedZones w).map fun z => z.2.1
  offsets := (sortedZones w).map (·.1) ++ [(w.nfa : Int)]
  kinds := (sortedZones w).map fun z => z.2.2
  perio := perioOf w.bocos

theorem fits_between {a n : Int} (h : FitsInt 4 n) (h0 : 0 ≤ a) (h1 : a ≤ n) : FitsInt 4 a := by
  unfold FitsInt at *
  omega

theorem meshFile_ok {h5 : H5} {f : FullMesh} {m : Mesh F64} {w : WState} {l : List Face} {x : MeshFile}
    (hk : Keeps32 h5) (hset : setMesh f m = .ok w) (hs : Storable m l) (hf : FitsV4 m l)
    (h : meshFile h5 m w = .ok x) :
    x = fileV4 m w ∧
      ∀ p ∈ w.bocos, (∃ k, type2zonekind.get? p.2.type = some k) ∧ p.1 = p.2.name ∧
        ∃ a b, p.2.index = .range a b := by
  obtain ⟨k1, k2, k3, k4, k5, k6⟩ := setMesh_faces hset hs.faces
  have hm := meshOK_of_count hset hs hf.count
  obtain ⟨co, zf, _, _, _, hw2⟩ := setMesh_ok hset
  have hb : w.bocos = m.bocos.filter fun p => decide (p.2.type ≠ "internal") := by rw [hw2]
  have hnfa : (w.nfa : Int) = l.length := by rw [k5, hf.count]
  have hrows : WState.rows w = l.map (·.2) := by rw [WState.rows, k3]; rfl
  have f1 : ∀ n ∈ (l.map (·.2)).flatMap (fun r => [r.1, r.2]), h5.i4 n = .ok n := by
    intro n hn
    simp only [List.mem_flatMap, List.mem_map, List.mem_cons, List.not_mem_nil, or_false] at hn
    obtain ⟨r, ⟨x, hx, rfl⟩, h⟩ := hn
    have := hf.numbers x hx
    rcases h with rfl | rfl
    · exact hk _ this.1
    · exact hk _ this.2.1
  have f2 : ∀ n ∈ w.noofa, h5.i4 n = .ok n := by
    intro n hn
    have := hm.nodesPerFace n hn
    exact hk n (by unfold FitsInt; omega)
  have f3 : ∀ n ∈ w.noofaV, h5.i4 n = .ok n := by
    intro n hn
    rw [k2, List.mem_flatten] at hn
    obtain ⟨q, hq, hn⟩ := hn
    obtain ⟨x, hx, rfl⟩ := List.mem_map.1 hq
    exact hk n ((hf.numbers x hx).2.2 n hn)
  unfold meshFile at h
  rw [k3] at h
  simp only [ravelF2e, Except_bind_ok] at h
  rw [mapM_keep f1, mapM_keep f2, mapM_keep f3] at h
  simp only [Except_bind_ok, bind_eq_ok] at h
  obtain ⟨⟨zs, perio⟩, hz, h⟩ := h
  obtain ⟨e1, e2⟩ := zonesV4_ok hz
  simp only [Prod.mk.injEq] at e1
  obtain ⟨rfl, rfl⟩ := e1
  have hlast := lastBoco_bounds (l := w.bocos) (n := w.nfa) (by have := hm.faces; omega) (by
    intro p hp
    obtain ⟨_, _, a, b, hi⟩ := e2 p hp
    exact ⟨by rw [markRange, hi], (hm.markRanges p hp).2.2⟩)
  have f4 : ∀ n ∈ (sortedZones w).map (·.1) ++ [(w.nfa : Int)], h5.i4 n = .ok n := by
    intro n hn
    have hfa : FitsInt 4 (w.nfa : Int) := by rw [hnfa]; exact hf.faces
    apply hk
    rcases List.mem_append.1 hn with hn | hn
    · obtain ⟨z, hz, rfl⟩ := List.mem_map.1 hn
      rw [sortedZones, (sortZones_perm _).mem_iff] at hz
      rcases List.mem_append.1 hz with hz | hz
      · obtain ⟨p, hp, rfl⟩ := List.mem_map.1 hz
        have := hm.markRanges p hp
        exact fits_between hfa this.1 this.2.1
      · simp only [List.mem_singleton] at hz
        subst hz
        exact fits_between hfa (by simp only; omega) (by simp only; omega)
    · simp only [List.mem_singleton] at hn
      rw [hn]; exact hfa
  obtain ⟨off, hoff, h⟩ := h
  rw [mapM_keep f4] at hoff
  simp only [Except.ok.injEq] at hoff
  subst hoff
  simp only [Except_pure, Except.ok.injEq] at h
  refine ⟨?_, e2⟩
  rw [← h]
  have hlab : ((sortedZones w).map fun z => h5label z.2.1) = (sortedZones w).map fun z => z.2.1 := by
    refine List.map_congr_left fun z hz => ?_
    rw [sortedZones, (sortZones_perm _).mem_iff] at hz
    rcases List.mem_append.1 hz with hz | hz
    · obtain ⟨p, hp, rfl⟩ := List.mem_map.1 hz
      rw [hb] at hp
      have hp' := List.mem_filter.1 hp
      obtain ⟨l1, l2⟩ := hf.labels p hp'.1 (by simpa using hp'.2)
      exact h5label_of_fits l1 l2
    · simp only [List.mem_singleton] at hz
      subst hz
      exact (by decide : h5label "internal-domain" = "internal-domain")
  rw [hlab]
  simp only [fileV4, hrows]

/-! ## Reading -/

theorem zip_maps (zs : List (Int × String × Int)) (L : List Int) :
    (zs.map fun z => z.2.1).zip ((zs.map fun z => z.2.2).zip ((zs.map (·.1)).zip (L.map (· - 1)))) =
      List.zipWith (fun z nx => (z.2.1, z.2.2, z.1, nx - 1)) zs L := by
  induction zs generalizing L with
  | nil => rfl
  | cons z t ih =>
      cases L with
      | nil => rfl
      | cons a L => simp [ih L]

theorem mapM_zipWith {α : Type} {f : (String × Int × Int × Int) → Py Mark} {q : α → Int → String × Int × Int × Int}
    {g : α → Int → Mark} {zs : List α} (h : ∀ z ∈ zs, ∀ nx, f (q z nx) = .ok (g z nx)) (L : List Int) :
    (List.zipWith q zs L).mapM f = .ok (List.zipWith g zs L) := by
  induction zs generalizing L with
  | nil => rfl
  | cons z t ih =>
      cases L with
      | nil => rfl
      | cons a L =>
          simp only [List.zipWith_cons_cons, List.mapM_cons]
          rw [h z (List.mem_cons_self ..), Except_bind_ok, ih (fun z hz => h z (List.mem_cons_of_mem _ hz)) L,
            Except_bind_ok]
          rfl

/-- A zone of the file as specified. -/
def zoneSpec (perio : Dict String (List F64)) (t : Int × String × Int) : Zone :=
  ⟨t.1, t.2.1, (zonekind2type.get? t.2.2).getD "", perio.get? t.2.1⟩

theorem kind_type {type : String} {k : Int} (h : type2zonekind.get? type = some k) :
    zonekind2type.get? k = some type := by
  have := Dict.mem_of_get? h
  clear h
  simp only [type2zonekind, List.mem_cons, List.not_mem_nil, or_false, Prod.mk.injEq] at this
  rcases this with ⟨rfl, rfl⟩ | ⟨rfl, rfl⟩ | ⟨rfl, rfl⟩ | ⟨rfl, rfl⟩ | ⟨rfl, rfl⟩ | ⟨rfl, rfl⟩ <;> decide

/-- The zones of the file, in its order, as specified. -/
def specZones (w : WState) : List Zone := (sortedZones w).map (zoneSpec (perioOf w.bocos))

theorem specZones_perm {w : WState} (hm : MeshOK w)
    (hk : ∀ p ∈ w.bocos, ∃ k, type2zonekind.get? p.2.type = some k) :
    (specZones w).Perm (w.bocos.map (fun p =>
      (⟨(markRange p.2).1, p.1, p.2.type, p.2.perio.map (List.take 3)⟩ : Zone)) ++
      [⟨lastBoco w.bocos + 1, "internal-domain", "internal", none⟩]) := by
  refine ((sortZones_perm _).map _).trans (List.Perm.of_eq ?_)
  rw [List.map_append, List.map_map]
  refine congrArg₂ _ ?_ ?_
  · refine List.map_congr_left fun p hp => ?_
    obtain ⟨k, hk⟩ := hk p hp
    simp only [Function.comp_def, zoneSpec, zoneTriple, hk, Option.getD_some, kind_type hk,
      perioOf_get hm.markKeys hp]
  · have hn : (perioOf w.bocos).get? "internal-domain" = none := by
      rw [Dict.get?_eq_none_iff]
      exact fun h => hm.markNames (perioOf_keys _ _ h)
    simp only [List.map_cons, List.map_nil, zoneSpec, hn]
    rfl

theorem specZones_sorted (w : WState) : (specZones w).Pairwise fun a b => a.start ≤ b.start := by
  unfold specZones
  rw [List.pairwise_map]
  exact sortZones_sorted _

/-- The marks read. -/
def marksRead (w : WState) : List Mark := marksOf (specZones w) w.nfa

/-- The content of the reader. -/
def rmeshV4 (w : WState) : RMeshV4 :=
  ⟨w.nno, w.nfa, w.ncv, ⟨offsets 0 w.noofa, w.noofaV⟩, WState.rows w, marksRead w, w.coords⟩

theorem readMeshV4_ok {m : Mesh F64} {w : WState} (hm : MeshOK w) (hl : w.noofa.length = w.nfa)
    (hr : (WState.rows w).length = w.nfa) (hc : w.coords.length = w.nno)
    (hk : ∀ p ∈ w.bocos, (∃ k, type2zonekind.get? p.2.type = some k) ∧ p.1 = p.2.name ∧
        ∃ a b, p.2.index = .range a b) :
    readMeshV4 (fileV4 m w) = .ok (rmeshV4 w) := by
  have hpos := hm.faces
  have r1 : readNoofaV4 (fileV4 m w) = .ok ⟨offsets 0 w.noofa, w.noofaV⟩ := by
    obtain ⟨a, b, g1, g2, e⟩ := noofa_tests (by omega) hm.nodesTotal
    have hck := offsets_check w.noofa w.noofaV (fun n hn => by have := hm.nodesPerFace n hn; omega) hm.nodesTotal
    unfold readNoofaV4
    simp only [fileV4, g1, g2, Except_bind_ok, hm.nodesTotal, e, decide_true, pyAssert, if_true, hck, Except_pure]
  have r2 : readCvofaV4 (fileV4 m w) = .ok (WState.rows w) := by
    have hmax := max_pairs (WState.rows w) ((w.ncv : Int) - 1) (fun r hr => by have := hm.cellMax r hr; omega) hm.lastCell
    have hlen : ((WState.rows w).flatMap fun r => [r.1, r.2]).length = w.nfa * 2 := by
      rw [length_flatMap_pairs, hr]
    have e2 : (w.ncv : Int) - 1 < w.ncv := by omega
    unfold readCvofaV4
    simp only [fileV4, hlen, hmax, pairs_flatMap, ne_eq, not_true_eq_false, if_false, e2, decide_true, pyAssert,
      if_true, Except_bind_ok, Except_pure]
  have hlast := lastBoco_bounds (l := w.bocos) (n := w.nfa) (by have := hm.faces; omega) (by
    intro p hp
    obtain ⟨_, _, a, b, hi⟩ := hk p hp
    exact ⟨by rw [markRange, hi], (hm.markRanges p hp).2.2⟩)
  have r3 : (zoneQuads (fileV4 m w)).mapM (readZoneV4 ⟨offsets 0 w.noofa, w.noofaV⟩ (fileV4 m w).perio) =
      .ok (marksRead w) := by
    have e1 : zoneQuads (fileV4 m w) = List.zipWith (fun z nx => (z.2.1, z.2.2, z.1, nx - 1)) (sortedZones w)
        (((sortedZones w).map (·.1)).tail ++ [(w.nfa : Int)]) := by
      unfold zoneQuads
      simp only [fileV4, List.dropLast_concat]
      cases hz : sortedZones w with
      | nil => rfl
      | cons z t => rw [← zip_maps]; rfl
    rw [e1, mapM_zipWith (g := fun z nx => (zoneSpec (perioOf w.bocos) z).mark nx)]
    · unfold marksRead marksOf specZones
      rw [List.zipWith_map_left, List.map_map]
      rfl
    · intro z hz nx
      have hz' : (∃ ty, zonekind2type.get? z.2.2 = some ty) ∧ 0 ≤ z.1 ∧ z.1 ≤ w.nfa := by
        rw [sortedZones, (sortZones_perm _).mem_iff] at hz
        rcases List.mem_append.1 hz with hz | hz
        · obtain ⟨p, hp, rfl⟩ := List.mem_map.1 hz
          obtain ⟨k, hk'⟩ := (hk p hp).1
          have := hm.markRanges p hp
          exact ⟨⟨p.2.type, by simp only [zoneTriple, hk', Option.getD_some]; exact kind_type hk'⟩, this.1, this.2.1⟩
        · simp only [List.mem_singleton] at hz
          subst hz
          exact ⟨⟨"internal", (by decide : zonekind2type.get? 6 = some "internal")⟩, by simp only; omega, by simp only; omega⟩
      obtain ⟨⟨ty, hty⟩, h0, h1⟩ := hz'
      obtain ⟨x, hx⟩ := npGet_ex (a := offsets 0 w.noofa) h0 (by rw [offsets_length, hl]; omega)
      unfold readZoneV4
      simp only [Dict.getE, hty, Except_bind_ok, hx, Except_pure, fileV4, Zone.mark, zoneSpec, Option.getD_some]
  unfold readMeshV4
  rw [r1, Except_bind_ok, r2, Except_bind_ok, r3, Except_bind_ok]
  have hcl : (fileV4 m w).coordinates.length = (fileV4 m w).no * 3 := by
    show (w.coords.flatMap fun p => [p.1, p.2.1, p.2.2]).length = w.nno * 3
    rw [← hc]
    exact length_flatMap_triples _
  rw [if_neg (by simpa using hcl)]
  simp only [fileV4, triples_flatMap, Except_pure, rmeshV4]

theorem marksRead_names {w : WState} (hm : MeshOK w)
    (hk : ∀ p ∈ w.bocos, ∃ k, type2zonekind.get? p.2.type = some k) : ((marksRead w).map (·.name)).Nodup := by
  have e : (marksRead w).map (·.name) = (specZones w).map (·.name) := by
    unfold marksRead marksOf
    have : ∀ (zs : List Zone) (L : List Int), zs.length ≤ L.length →
        (List.zipWith Zone.mark zs L).map (·.name) = zs.map (·.name) := by
      intro zs
      induction zs with
      | nil => intro L _; rfl
      | cons z t ih =>
          intro L hL
          cases L with
          | nil => simp at hL
          | cons a L => simp only [List.zipWith_cons_cons, List.map_cons, ih L (by simpa using hL)]; rfl
    exact this _ _ (by simp; omega)
  rw [e, ((specZones_perm hm hk).map _).nodup_iff, List.map_append, List.map_map, List.nodup_append]
  refine ⟨hm.markKeys, by simp, ?_⟩
  intro a ha b hb
  simp only [List.map_cons, List.map_nil, List.mem_singleton] at hb
  subst hb
  rintro rfl
  exact hm.markNames ha

/-- The mesh exported by the V4 reader. -/
def exportedV4 (w : WState) (c : ElemConn) (cells : Dict String NpArr) (params : Dict String SimVal) : FullMesh where
  mesh := { ncell := w.ncv, nnode := w.nno, nface := c.nelem, cell2node := none
            faces := [("mixed", ⟨c, some (some (WState.rows w))⟩)]
            coords := some (w.coords.map (·.1), w.coords.map (·.2.1), w.coords.map (·.2.2))
            bocos := (marksRead w).map fun b => (b.name, b) }
  cells := ⟨some ⟨.dataSet, "cellaverage", 1, "instant"⟩, cells⟩
  nodes := []
  params := params
  partition := some none

theorem exportV4_ok {w : WState} (hc : w.coords.length = w.nno) (hn : ((marksRead w).map (·.name)).Nodup)
    {c : ElemConn} (hi : ElemConn.empty.importCompressed ⟨ElemConn.offsets 0 w.noofa, w.noofaV⟩ = .ok c)
    (cells : Dict String NpArr) (sim : Dict String SimVal) :
    exportV4 (rmeshV4 w) cells sim =
      .ok (exportedV4 w c cells (sim.foldl (fun d p => d.set p.1 p.2) (paramsV4 (rmeshV4 w)))) := by
  unfold exportV4
  have e1 : (Mesh.new (R := F64) w.ncv w.nno).setCoordsNd w.coords = .ok { (Mesh.new w.ncv w.nno : Mesh F64) with
        coords := some (w.coords.map (·.1), w.coords.map (·.2.1), w.coords.map (·.2.2)) } := by
    unfold Mesh.setCoordsNd
    simp only [Mesh.new, hc, decide_true, pyAssert, if_true, Except_bind_ok, Except_pure]
  have e0 : (rmeshV4 w).cv = w.ncv ∧ (rmeshV4 w).no = w.nno ∧ (rmeshV4 w).coords = w.coords ∧
      (rmeshV4 w).csr = ⟨offsets 0 w.noofa, w.noofaV⟩ ∧ (rmeshV4 w).cvofa = WState.rows w ∧
      (rmeshV4 w).bocos = marksRead w := ⟨rfl, rfl, rfl, rfl, rfl, rfl⟩
  rw [e0.1, e0.2.1, e0.2.2.1, e0.2.2.2.1, e0.2.2.2.2.1, e0.2.2.2.2.2, e1, Except_bind_ok, hi, Except_bind_ok]
  have e2 : ∀ m : Mesh F64, m.faces = [] → m.addFaces "mixed" c (some (some (WState.rows w))) =
      .ok { m with faces := [("mixed", ⟨c, some (some (WState.rows w))⟩)], nface := c.nelem } := by
    intro m h
    unfold Mesh.addFaces
    rw [h]
    simp only [Mesh.faceKinds, List.mem_cons, true_or, if_true, Dict.set, Mesh.totalFaces, List.map_cons,
      List.map_nil, List.sum_cons, List.sum_nil, Nat.add_zero]
  rw [e2 _ rfl, Except_bind_ok, foldl_addBoco]
  have e3 : (marksRead w).foldl (fun (d : Dict String Mark) b => d.set b.name b) [] =
      (marksRead w).map fun b => (b.name, b) := by
    have := foldl_set_new (marksRead w) (·.name) id ([] : Dict String Mark) (by
      rw [show Dict.keys ([] : Dict String Mark) = [] from rfl, List.nil_append]
      exact hn)
    rw [List.nil_append] at this
    exact this
  simp only [Mesh.new]
  rw [e3]
  rfl

/-- Reading the files written: the mesh in terms of the state of the writer. -/
theorem readV4_ok {h5 : H5} {f : FullMesh} {m : Mesh F64} {w : WState} {l : List Face} {x : MeshFile}
    (hk : Keeps32 h5) (hset : setMesh f m = .ok w) (hs : Storable m l) (hf : FitsV4 m l)
    (h : meshFile h5 m w = .ok x) :
    ∃ c, IsFaces ⟨c, some (some (l.map (·.2)))⟩ l ∧ c.nelem = l.length ∧ x.cv = m.ncell ∧
      (∀ p ∈ w.bocos, (∃ k, type2zonekind.get? p.2.type = some k) ∧ p.1 = p.2.name ∧
        ∃ a b, p.2.index = .range a b) ∧
      ∀ s, readV4 x s = (match s with
        | none => .ok (exportedV4 w c [] (([("step", .int 0), ("time", .int 0)] : Dict String SimVal).foldl
            (fun d p => d.set p.1 p.2) (paramsV4 (rmeshV4 w))))
        | some s => (readVarsV4 m.ncell s).map fun cells =>
            exportedV4 w c cells ((readInfoV4 s).foldl (fun d p => d.set p.1 p.2) (paramsV4 (rmeshV4 w)))) := by
  obtain ⟨rfl, hz⟩ := meshFile_ok hk hset hs hf h
  have hm := meshOK_of_count hset hs hf.count
  obtain ⟨k1, k2, k3, k4, k5, k6⟩ := setMesh_faces hset hs.faces
  obtain ⟨co, zf, hco, hst, _, hw2⟩ := setMesh_ok hset
  have hcsr : (⟨ElemConn.offsets 0 w.noofa, w.noofaV⟩ : Csr) = csrOf (l.map (·.1)) := by
    rw [k1, k2, csrOf, List.map_map]; rfl
  obtain ⟨c, h1, _⟩ := import_ok (l.map (·.1)) (by
    intro f hf
    obtain ⟨x, hx, rfl⟩ := List.mem_map.1 hf
    exact hs.nodesPerFace x hx)
  obtain ⟨h2, h3⟩ := isFaces_exported hs.nodesPerFace h1
  have hr : (WState.rows w) = l.map (·.2) := by rw [WState.rows, k3]; rfl
  have hc : w.coords.length = w.nno := by rw [k4, ← hst, hw2]
  have hread := readMeshV4_ok (m := m) hm (by rw [k1, List.length_map, k5, hf.count])
    (by rw [hr, List.length_map, k5, hf.count]) hc hz
  have hn := marksRead_names hm fun p hp => (hz p hp).1
  rw [← hcsr] at h1
  refine ⟨c, h2, h3, k6, hz, ?_⟩
  intro s
  unfold readV4
  rw [hread, Except_bind_ok]
  cases s with
  | none => exact exportV4_ok hc hn h1 _ _
  | some s =>
      simp only
      rw [show (fileV4 m w).cv = m.ncell from k6]
      cases hv : readVarsV4 m.ncell s with
      | error e => rfl
      | ok cells =>
          rw [Except_bind_ok]
          exact exportV4_ok hc hn h1 _ _

end Cfd.Ic3
