import Verif.Lemmas.Ic3V4

/-! Lemmas on the zones of IC3 V4 files when the marks cover consecutive faces. -/

namespace Cfd.Ic3
open Spec Spec.Ic3

theorem perm_map_exists {α β : Type} {f : α → β} {l : List β} {l₂ : List α} (h : l.Perm (l₂.map f)) :
    ∃ l' : List α, l'.Perm l₂ ∧ l = l'.map f := by
  induction l generalizing l₂ with
  | nil =>
      have := h.symm.eq_nil
      rw [List.map_eq_nil_iff] at this
      exact ⟨[], by rw [this], rfl⟩
  | cons a t ih =>
      have ha : a ∈ l₂.map f := h.mem_iff.1 (List.mem_cons_self ..)
      obtain ⟨x, hx, rfl⟩ := List.mem_map.1 ha
      obtain ⟨s, u, rfl⟩ := List.append_of_mem hx
      have hp : (f x :: t).Perm (f x :: (s ++ u).map f) := by
        refine h.trans ?_
        rw [List.map_append, List.map_cons, List.map_append]
        exact List.perm_middle
      obtain ⟨l', h1, h2⟩ := ih (hp.cons_inv)
      exact ⟨x :: l', (h1.cons x).trans List.perm_middle.symm, by rw [h2]; rfl⟩

/-- Sorted non-empty intervals which cover `s .. n-1` once follow each other. -/
theorem tile_stops {α : Type} (start stop : α → Int) (zs : List α) (hz : zs ≠ []) (s n : Int)
    (hsort : zs.Pairwise fun a b => start a ≤ start b) (hne : ∀ z ∈ zs, start z < stop z)
    (hp : (zs.flatMap fun z => pyRange (start z) (stop z)).Perm (pyRange s n)) :
    zs.head?.map start = some s ∧ zs.map stop = (zs.map start).tail ++ [n] := by
  induction zs generalizing s with
  | nil => exact absurd rfl hz
  | cons z t ih =>
      have hz1 := hne z (List.mem_cons_self ..)
      have hin : ∀ y ∈ z :: t, ∀ v, start y ≤ v → v < stop y → s ≤ v ∧ v < n := by
        intro y hy v h1 h2
        exact mem_pyRange.1 (hp.mem_iff.1 (List.mem_flatMap.2 ⟨y, hy, mem_pyRange.2 ⟨h1, h2⟩⟩))
      have e1 := hin z (List.mem_cons_self ..) (start z) (by omega) hz1
      have e2 := hin z (List.mem_cons_self ..) (stop z - 1) (by omega) (by omega)
      have hs : start z = s := by
        obtain ⟨y, hy, hv⟩ := List.mem_flatMap.1 (hp.mem_iff.2 (mem_pyRange.2 ⟨le_refl s, by omega⟩))
        rw [mem_pyRange] at hv
        rcases List.mem_cons.1 hy with rfl | hy
        · omega
        · have := (List.pairwise_cons.1 hsort).1 y hy
          omega
      have hp' : (t.flatMap fun z => pyRange (start z) (stop z)).Perm (pyRange (stop z) n) := by
        rw [List.flatMap_cons, ← pyRange_append (a := s) (b := stop z) (c := n) (by omega) (by omega), hs] at hp
        exact (List.perm_append_left_iff _).1 hp
      refine ⟨by simp [hs], ?_⟩
      cases t with
      | nil =>
          have h0 := hp'.symm.eq_nil
          have : stop z = n := by
            by_contra hne
            rw [pyRange_cons (by omega)] at h0
            simp at h0
          simp [this]
      | cons y t =>
          obtain ⟨i1, i2⟩ := ih (by simp) (stop z) (List.pairwise_cons.1 hsort).2
            (fun y hy => hne y (List.mem_cons_of_mem _ hy)) hp'
          simp only [List.head?_cons, Option.map_some, Option.some.injEq] at i1
          rw [List.map_cons, i2, List.map_cons, List.tail_cons, List.map_cons, List.map_cons, List.tail_cons, i1]
          rfl

/-- In a sorted list an element strictly above all others is the last one. -/
theorem sorted_last {l zs : List Zone} {x : Zone} (hp : zs.Perm (l ++ [x]))
    (hsort : zs.Pairwise fun a b => a.start ≤ b.start) (hlt : ∀ z ∈ l, z.start < x.start) :
    ∃ zs', zs'.Perm l ∧ zs = zs' ++ [x] := by
  have hx : x ∈ zs := hp.mem_iff.2 (by simp)
  obtain ⟨a, b, rfl⟩ := List.append_of_mem hx
  have hp' : (a ++ b).Perm l := by
    have : (x :: (a ++ b)).Perm (x :: l) :=
      List.perm_middle.symm.trans (hp.trans (List.perm_append_comm (l₁ := l) (l₂ := [x])))
    exact this.cons_inv
  cases b with
  | nil => exact ⟨a, by simpa using hp', rfl⟩
  | cons y b =>
      have h1 := hlt y (hp'.mem_iff.1 (by simp))
      have h2 := (List.pairwise_cons.1 (List.pairwise_append.1 hsort).2.1).1 y (List.mem_cons_self ..)
      omega

theorem marks_tile {d : Dict String Mark} {zs : List Zone} {k n : Int} (hk : 1 ≤ k)
    (hp : zs.Perm (d.map (fun p =>
      (⟨(markRange p.2).1, p.1, p.2.type, p.2.perio.map (List.take 3)⟩ : Zone)) ++
      [⟨k, "internal-domain", "internal", none⟩]))
    (hsort : zs.Pairwise fun a b => a.start ≤ b.start)
    (hr : ∀ p ∈ d, ∃ a b, p.2.index = .range a b ∧ a ≤ b)
    (hz : (d.flatMap fun p => markItems p.2).Perm (pyRange 0 k)) :
    ∃ d' : Dict String Mark, d'.Perm d ∧ marksOf zs n =
      d'.map (fun p => (⟨p.1, if p.2.type = "internal" then .intface else .bdface, p.2.type, p.2.index,
        p.2.perio.map (List.take 3)⟩ : Mark)) ++
      [⟨"internal-domain", .intface, "internal", .range k (n - 1), none⟩] := by
  have hitem : ∀ p ∈ d, markItems p.2 = pyRange (markRange p.2).1 ((markRange p.2).2 + 1) := by
    intro p hp
    obtain ⟨a, b, h, _⟩ := hr p hp
    unfold markItems markRange
    rw [h]
    rfl
  have hmr : ∀ p ∈ d, (markRange p.2).1 < (markRange p.2).2 + 1 := by
    intro p hp
    obtain ⟨a, b, h, _⟩ := hr p hp
    unfold markRange
    rw [h]
    simp only
    omega
  have hlt : ∀ z ∈ d.map (fun p =>
      (⟨(markRange p.2).1, p.1, p.2.type, p.2.perio.map (List.take 3)⟩ : Zone)), z.start < k := by
    intro z hz'
    obtain ⟨p, hp, rfl⟩ := List.mem_map.1 hz'
    have : (markRange p.2).1 ∈ pyRange 0 k := by
      refine hz.mem_iff.1 (List.mem_flatMap.2 ⟨p, hp, ?_⟩)
      rw [hitem p hp, mem_pyRange]
      have := hmr p hp
      omega
    exact (mem_pyRange.1 this).2
  obtain ⟨zs', hp', rfl⟩ := sorted_last hp hsort hlt
  obtain ⟨d', hd', rfl⟩ := perm_map_exists hp'
  refine ⟨d', hd', ?_⟩
  have hne : d' ≠ [] := by
    rintro rfl
    have : d = [] := hd'.symm.eq_nil
    subst this
    have := hz.symm.eq_nil
    rw [pyRange_cons (by omega)] at this
    simp at this
  have hsort' := (List.pairwise_append.1 hsort).1
  rw [List.pairwise_map] at hsort'
  obtain ⟨_, t2⟩ := tile_stops (fun p : String × Mark => (markRange p.2).1) (fun p => (markRange p.2).2 + 1) d' hne 0 k
    hsort' (fun p hp => hmr p (hd'.mem_iff.1 hp)) (by
      refine List.Perm.trans (List.Perm.trans ?_ (hd'.flatMap_right _)) hz
      refine List.Perm.of_eq ?_
      refine List.flatMap_congr fun p hp => ?_
      exact (hitem p (hd'.mem_iff.1 hp)).symm)
  unfold marksOf
  rw [List.map_append, List.map_map]
  have e : ((d'.map ((fun z : Zone => z.start) ∘ fun p : String × Mark =>
      (⟨(markRange p.2).1, p.1, p.2.type, p.2.perio.map (List.take 3)⟩ : Zone))) ++
      [(⟨k, "internal-domain", "internal", none⟩ : Zone)].map (·.start)).tail ++ [n] =
      d'.map (fun p => (markRange p.2).2 + 1) ++ [n] := by
    rw [t2]
    cases d' with
    | nil => exact absurd rfl hne
    | cons p t => simp [Function.comp_def]
  rw [e, List.zipWith_append (by simp)]
  congr 1
  rw [List.zipWith_map, List.zipWith_self]
  refine List.map_congr_left fun p hp => ?_
  obtain ⟨a, b, h, _⟩ := hr p (hd'.mem_iff.1 hp)
  unfold Zone.mark markRange
  rw [h]
  simp

end Cfd.Ic3
