import Verif.Spec.Exact
import Verif.Lemmas.Merge
import Verif.Props.Mesh

/-! # Lemmas for the exact conditions -/

namespace Cfd
open Spec ElemConn

variable {R : Type}

/-! ## C07 -/

theorem withShifts_eq (l : List ElemConn) :
    ((0 : Int) :: (l.map fun c => ((elements c).length : Int)).dropLast).zip l = withShifts l := by
  unfold withShifts
  generalize (0 : Int) = s
  induction l generalizing s with
  | nil => rfl
  | cons a t ih =>
    cases t with
    | nil => rfl
    | cons b t =>
      have := ih ((elements a).length : Int)
      simp only [List.map_cons, List.dropLast_cons₂, List.zip_cons_cons] at this ⊢
      rw [this]

theorem le_sum_of_mem {l : List Nat} {a : Nat} (h : a ∈ l) : a ≤ l.sum := by
  induction l with
  | nil => cases h
  | cons b l ih =>
    rw [List.sum_cons]
    rcases List.mem_cons.1 h with rfl | h
    · omega
    · have := ih h; omega

theorem mem_withShifts {l : List ElemConn} {p : Int × ElemConn} (h : p ∈ withShifts l) :
    (∃ post, l = p.2 :: post ∧ p.1 = 0) ∨ ∃ pre a post, l = pre ++ a :: p.2 :: post ∧ p.1 = ((elements a).length : Int) := by
  have key : ∀ (l : List ElemConn) (s : Int), p ∈ (s :: l.map fun c => ((elements c).length : Int)).zip l →
      (∃ post, l = p.2 :: post ∧ p.1 = s) ∨ ∃ pre a post, l = pre ++ a :: p.2 :: post ∧ p.1 = ((elements a).length : Int) := by
    intro l
    induction l with
    | nil => intro s h; simp at h
    | cons a t ih =>
      intro s h
      rw [List.zip_cons_cons, List.mem_cons] at h
      rcases h with rfl | h
      · exact .inl ⟨t, rfl, rfl⟩
      · rw [List.map_cons] at h
        rcases ih _ h with ⟨post, h1, h2⟩ | ⟨pre, b, post, h1, h2⟩
        · exact .inr ⟨[], a, post, by rw [h1]; rfl, h2⟩
        · exact .inr ⟨a :: pre, b, post, by rw [h1]; rfl, h2⟩
  exact key l 0 h

theorem sum_lengths (l : List ElemConn) (s : List Int) (hs : s.length = l.length) :
    ((s.zip l).flatMap fun p => (elements p.2).map fun x => (x.1, x.2.1 + p.1, x.2.2)).length =
      (l.map fun c => (elements c).length).sum := by
  induction l generalizing s with
  | nil => simp
  | cons a t ih =>
    cases s with
    | nil => simp at hs
    | cons b s =>
      rw [List.zip_cons_cons, List.flatMap_cons, List.length_append, ih s (by simpa using hs)]
      simp

theorem merge_length (l : List ElemConn) :
    ((withShifts l).flatMap fun p => (elements p.2).map fun x => (x.1, x.2.1 + p.1, x.2.2)).length =
      (l.map fun c => (elements c).length).sum := by
  rw [← withShifts_eq]
  cases l with
  | nil => rfl
  | cons a t => exact sum_lengths _ _ (by simp)

/-! ## C16, C17 -/

theorem marked_iff {m : Mesh R} (hk : m.bocos.keys.Nodup) (name : String) (i : Int) :
    i ∈ marked m ↔ MarkedElse m name i ∨ ∃ b, m.bocos.get? name = some b ∧ i ∈ markItems b := by
  unfold marked MarkedElse
  rw [List.mem_flatMap]
  constructor
  · rintro ⟨p, hp, hi⟩
    by_cases h : p.1 = name
    · exact .inr ⟨p.2, by rw [← h]; exact Dict.get?_of_mem hk hp, hi⟩
    · exact .inl ⟨p, hp, h, hi⟩
  · rintro (⟨p, hp, _, hi⟩ | ⟨b, hb, hi⟩)
    · exact ⟨p, hp, hi⟩
    · exact ⟨(name, b), Dict.mem_of_get? hb, hi⟩

theorem markedElse_iff {m : Mesh R} (hk : m.bocos.keys.Nodup) (name : String) (i : Int) :
    MarkedElse m name i ↔ ∃ n b, n ≠ name ∧ m.bocos.get? n = some b ∧ i ∈ markItems b := by
  unfold MarkedElse
  constructor
  · rintro ⟨p, hp, hn, hi⟩
    exact ⟨p.1, p.2, hn, Dict.get?_of_mem hk hp, hi⟩
  · rintro ⟨n, b, hn, hb, hi⟩
    exact ⟨(n, b), Dict.mem_of_get? hb, hn, hi⟩

/-- The mesh after the call. -/
theorem addBoco_marks {m : Mesh R} (hk : m.bocos.keys.Nodup) (name : String) (l : List Int) (hset : MarksSet m)
    (hon : MarksOnFaces m) :
    let m' := m.addBoco ⟨name, .bdface, "boundary", .list l, none⟩
    m'.bocos.keys.Nodup ∧ MarksSet m' ∧ MarksOnFaces m' ∧ (∀ n, n ≠ name → m'.bocos.get? n = m.bocos.get? n) ∧
      (∀ i, MarkedElse m' name i ↔ MarkedElse m name i) ∧ (∀ i, i ∈ marked m' ↔ MarkedElse m name i ∨ i ∈ l) := by
  intro m'
  have hk' : m'.bocos.keys.Nodup := Dict.nodup_keys_set hk _ _
  have hother : ∀ n, n ≠ name → m'.bocos.get? n = m.bocos.get? n := fun n hn => Dict.get?_set_ne _ _ hn
  have hself : m'.bocos.get? name = some ⟨name, .bdface, "boundary", .list l, none⟩ := Dict.get?_set_self _ _ _
  have helse : ∀ i, MarkedElse m' name i ↔ MarkedElse m name i := by
    intro i
    rw [markedElse_iff hk', markedElse_iff hk]
    constructor
    · rintro ⟨n, b, hn, hb, hi⟩; exact ⟨n, b, hn, by rw [← hother n hn]; exact hb, hi⟩
    · rintro ⟨n, b, hn, hb, hi⟩; exact ⟨n, b, hn, by rw [hother n hn]; exact hb, hi⟩
  have hmem : ∀ p ∈ m'.bocos, p ∈ m.bocos ∨ p.2 = ⟨name, .bdface, "boundary", .list l, none⟩ := by
    intro p hp
    have hg := Dict.get?_of_mem hk' hp
    by_cases h : p.1 = name
    · rw [h, hself, Option.some.injEq] at hg; exact .inr hg.symm
    · rw [hother _ h] at hg; exact .inl (Dict.mem_of_get? hg)
  refine ⟨hk', ?_, ?_, hother, helse, ?_⟩
  · intro p hp
    rcases hmem p hp with h | h
    · exact hset p h
    · rw [h]; simp
  · intro p hp
    rcases hmem p hp with h | h
    · exact hon p h
    · rw [h]; simp
  · intro i
    rw [marked_iff hk' name, helse, hself]
    simp [markItems, IndexList.toList]

theorem check_step (so : List Int → List Int) (hso : Reorders so) {m : Mesh R} {fs : FaceSet} (h : Checkable m fs) :
    ((∀ i ∈ allIndices fs.f2n, i ∈ marked m) → m.check so = (.ok true, m)) ∧
    ((∃ i ∈ allIndices fs.f2n, i ∉ marked m) → ∃ missing, (∀ i, i ∈ missing ↔ i ∈ allIndices fs.f2n ∧ i ∉ marked m) ∧
      m.check so = (.error .assertion, m.addBoco ⟨"unmarked_faces", .bdface, "boundary", .list missing, none⟩)) := by
  obtain ⟨missing, hmiss, hok⟩ := makeUnmarked_ok so h.faces h.wf.entries h.set h.onFaces "unmarked_faces"
  have hmem : ∀ i, i ∈ missing ↔ i ∈ allIndices fs.f2n ∧ i ∉ marked m := by
    intro i
    rw [hmiss, (hso _).mem_iff, List.mem_filter, List.mem_dedup]
    simp
  have hcc : m.checkCell2node = .ok () := by
    unfold Mesh.checkCell2node
    cases hc : m.cell2node with
    | none => rfl
    | some c => simp [pyAssert, h.conn c hc]
  have hcheck : m.check so = if missing.isEmpty then (.ok true, if missing = [] then m
        else m.addBoco ⟨"unmarked_faces", .bdface, "boundary", .list missing, none⟩) else (.error .assertion, if missing = [] then m
        else m.addBoco ⟨"unmarked_faces", .bdface, "boundary", .list missing, none⟩) := by
    unfold Mesh.check
    rw [if_neg h.cells, if_neg h.nodes, hcc]
    simp only [hok]
  constructor
  · intro hall
    have : missing = [] := by
      rw [List.eq_nil_iff_forall_not_mem]
      intro i hi
      exact ((hmem i).1 hi).2 (hall i ((hmem i).1 hi).1)
    rw [hcheck, this]
    rfl
  · rintro ⟨i, hi, hn⟩
    have hne : missing ≠ [] := by
      intro h0
      have := (hmem i).2 ⟨hi, hn⟩
      rw [h0] at this; cases this
    refine ⟨missing, hmem, ?_⟩
    rw [hcheck, if_neg (by simpa using hne), if_neg hne]

theorem check_next {m : Mesh R} {fs : FaceSet} (h : Checkable m fs) (l : List Int) :
    Checkable (m.addBoco ⟨"unmarked_faces", .bdface, "boundary", .list l, none⟩) fs := by
  obtain ⟨h1, h2, h3, _⟩ := addBoco_marks h.names "unmarked_faces" l h.set h.onFaces
  exact ⟨h.cells, h.nodes, h.conn, h.faces, h.wf, h2, h3, h1⟩

theorem verdict_succ (so : List Int → List Int) (m : Mesh R) (n : Nat) :
    verdict so m (n + 1) = verdict so (m.check so).2 n := by
  unfold verdict
  rw [Function.iterate_succ_apply]

/-! ## C57 -/

theorem buildFaces_key {tbl : FaceTable} {c : ElemConn} (hc : ∀ p ∈ c.tbl, EntryWF p.2)
    (hk : ∀ p ∈ c.tbl, tbl.get? p.1 = none ∨ ∃ fs k, tbl.get? p.1 = some fs ∧ p.2.e2n.ncol = some k ∧
      ∀ q ∈ fs, ∀ f ∈ q.2, ∀ i ∈ f, i < k) (hu : ∃ p ∈ c.tbl, tbl.get? p.1 = none) : buildFaces tbl c = .error .key := by
  unfold buildFaces
  generalize ([] : Dict String (List FaceOcc)) = d0
  generalize c.tbl = T at hc hk hu
  induction T generalizing d0 with
  | nil => obtain ⟨p, hp, _⟩ := hu; cases hp
  | cons p T ih =>
    rw [List.foldlM_cons, (hc p (by simp)).toList, Except_bind_ok]
    rcases hk p (by simp) with h0 | ⟨fs, k, h1, h2, h3⟩
    · have : tbl.getE p.1 = .error .key := by unfold Dict.getE; rw [h0]
      rw [this]
      rfl
    · rw [show tbl.getE p.1 = .ok fs from Dict.getE_eq_ok.2 h1, Except_bind_ok]
      have inner : ∀ d : Dict String (List FaceOcc), ∃ d',
          fs.foldlM (fun d q => addFacesOfType p.2.e2n (indicesOf p.2) q.1 q.2 d) d = .ok d' := by
        clear ih h1
        induction fs with
        | nil => intro d; exact ⟨d, rfl⟩
        | cons q fs ih2 =>
          intro d
          rw [List.foldlM_cons, addFacesOfType_ok q.1 q.2 h2 (fun f hf => h3 q (by simp) f hf), Except_bind_ok]
          exact ih2 (fun q' hq' => h3 q' (by simp [hq'])) _
      obtain ⟨d', hd'⟩ := inner d0
      rw [hd', Except_bind_ok]
      refine ih d' (fun q hq => hc q (by simp [hq])) (fun q hq => hk q (by simp [hq])) ?_
      obtain ⟨q, hq, hqn⟩ := hu
      rcases List.mem_cons.1 hq with rfl | hq
      · rw [h1] at hqn; cases hqn
      · exact ⟨q, hq, hqn⟩

end Cfd
