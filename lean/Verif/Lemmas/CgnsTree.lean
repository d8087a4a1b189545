import Verif.Spec.CgnsTree
import Verif.Lemmas.Cgns
import Mathlib.Data.List.Induction

/-! # Lemmas on the tree of a CGNS file -/

namespace Cfd.Cgns
open Cfd.Spec Cfd.Spec.Cgns

variable {R : Type}

/-! ## Navigation -/

theorem dict_find {V : Type} (l : Dict String V) (name : String) :
    l.get? name = (l.find? fun p => decide (p.1 = name)).map (·.2) := by
  induction l with
  | nil => rfl
  | cons a t ih =>
    obtain ⟨k, v⟩ := a
    unfold Dict.get?
    rw [List.find?_cons]
    by_cases h : k = name
    · simp [h]
    · simp [h, ih]

theorem get_eq {t u : Tree R} {name : String} : t.get name = .ok u ↔ member t name = some u := by
  cases t with
  | group l items =>
    unfold Tree.get member members
    rw [Dict.getE_eq_ok, dict_find]
  | dataset l d => unfold Tree.get member members; simp

theorem has_eq (t : Tree R) (name : String) : t.has name = (member t name).isSome := by
  cases t with
  | group l items => unfold Tree.has member members; simp only; rw [dict_find]
  | dataset l d => unfold Tree.has member members; simp

theorem array_eq {t : Tree R} {name : String} {d : Data R} : t.array name = .ok d ↔ HasData t [name] d := by
  unfold Tree.array HasData
  rw [bind_eq_ok]
  simp only [follow]
  constructor
  · rintro ⟨u, hu, h⟩
    rw [get_eq.1 hu]
    cases u with
    | group l i => cases h
    | dataset l e => exact ⟨l, by cases h; rfl⟩
  · rintro ⟨l, h⟩
    cases hm : member t name with
    | none => rw [hm] at h; cases h
    | some u =>
      rw [hm] at h
      cases h
      exact ⟨_, get_eq.2 hm, rfl⟩

theorem hasData_cons {t : Tree R} {name : String} {path : List String} {d : Data R} :
    HasData t (name :: path) d ↔ ∃ u, member t name = some u ∧ HasData u path d := by
  unfold HasData
  simp only [follow]
  cases hm : member t name with
  | none => simp
  | some u => simp

theorem arrayIn_eq {t : Tree R} {name : String} {d : Data R} :
    t.arrayIn name = .ok d ↔ HasData t [name, " data"] d := by
  unfold Tree.arrayIn
  rw [bind_eq_ok, hasData_cons]
  constructor
  · rintro ⟨u, hu, h⟩; exact ⟨u, get_eq.1 hu, array_eq.1 h⟩
  · rintro ⟨u, hu, h⟩; exact ⟨u, get_eq.2 hu, array_eq.2 h⟩

/-- One dataset per path. -/
theorem hasData_unique {t : Tree R} {path : List String} {d d' : Data R} (h : HasData t path d) (h' : HasData t path d') :
    d = d' := by
  obtain ⟨l, h⟩ := h
  obtain ⟨l', h'⟩ := h'
  rw [h] at h'
  cases h'
  rfl

theorem dictCgnstype_eq {t : Tree R} {label : String} {l : List (String × Tree R)} :
    dictCgnstype t label = .ok l ↔ IsGroup t ∧ l = labelled t label := by
  unfold dictCgnstype IsGroup labelled
  rw [bind_eq_ok]
  cases t with
  | group lb items =>
    simp only [Tree.items, members]
    constructor
    · rintro ⟨a, ha, h⟩; cases ha; cases h; exact ⟨⟨_, _, rfl⟩, rfl⟩
    · rintro ⟨-, rfl⟩; exact ⟨_, rfl, rfl⟩
  | dataset lb d =>
    simp only [Tree.items]
    constructor
    · rintro ⟨a, ha, -⟩; cases ha
    · rintro ⟨⟨_, _, h⟩, -⟩; cases h

/-! ## Values -/

theorem chr_eq {n : Int} {c : Char} : chr n = .ok c ↔ n = (c.toNat : Int) ∧ c.toNat < 256 := by
  unfold chr
  split
  · rename_i h
    have hv : n.toNat.isValidChar := by left; omega
    have e : (Char.ofNat n.toNat).toNat = n.toNat := by
      rw [Char.ofNat, dif_pos hv]; rfl
    constructor
    · intro hc
      cases hc
      rw [e]; omega
    · rintro ⟨h1, -⟩
      congr 1
      rw [h1, Int.toNat_natCast, Char.ofNat_toNat]
  · rename_i h
    constructor
    · intro hc; cases hc
    · rintro ⟨h1, h2⟩; omega

theorem chrs_eq {l : List Int} {cs : List Char} :
    l.mapM chr = .ok cs ↔ l = cs.map (fun c => (c.toNat : Int)) ∧ ∀ c ∈ cs, c.toNat < 256 := by
  induction l generalizing cs with
  | nil =>
    constructor
    · intro h; cases h; simp
    · rintro ⟨h, -⟩
      cases cs with
      | nil => rfl
      | cons a t => simp at h
  | cons a t ih =>
    rw [List.mapM_cons, bind_eq_ok]
    constructor
    · rintro ⟨c, hc, h⟩
      obtain ⟨r, hr, h⟩ := bind_eq_ok.1 h
      cases h
      obtain ⟨h1, h2⟩ := chr_eq.1 hc
      obtain ⟨h3, h4⟩ := ih.1 hr
      refine ⟨by rw [List.map_cons, ← h3, ← h1], ?_⟩
      simp only [List.mem_cons, forall_eq_or_imp]
      exact ⟨h2, h4⟩
    · rintro ⟨h, h2⟩
      cases cs with
      | nil => simp at h
      | cons c r =>
        rw [List.map_cons, List.cons.injEq] at h
        refine ⟨c, chr_eq.2 ⟨h.1, h2 c (by simp)⟩, ?_⟩
        rw [ih.2 ⟨h.2, fun c hc => h2 c (by simp [hc])⟩]
        rfl

theorem h5Str_eq {d : Data R} {s : String} :
    h5Str d = .ok s ↔ ∃ n, d = .ints [n] (s.toList.map fun c => (c.toNat : Int)) ∧ ∀ c ∈ s.toList, c.toNat < 256 := by
  constructor
  · intro h
    unfold h5Str at h
    split at h
    · rename_i n l
      obtain ⟨cs, hcs, h⟩ := bind_eq_ok.1 h
      cases h
      obtain ⟨h1, h2⟩ := chrs_eq.1 hcs
      exact ⟨n, by rw [h1, String.toList_ofList], by rw [String.toList_ofList]; exact h2⟩
    · cases h
  · rintro ⟨n, rfl, h⟩
    unfold h5Str
    simp only
    rw [chrs_eq.2 ⟨rfl, h⟩]
    simp [String.ofList_toList, pure, Except.pure]

theorem text_eq {t : Tree R} {name s : String} :
    (do h5Str (← t.arrayIn name)) = .ok s ↔ HasText t [name, " data"] s := by
  show (t.arrayIn name >>= h5Str) = .ok s ↔ _
  rw [bind_eq_ok]
  unfold HasText
  constructor
  · rintro ⟨d, hd, h⟩
    obtain ⟨n, rfl, h'⟩ := h5Str_eq.1 h
    exact ⟨n, arrayIn_eq.1 hd, h'⟩
  · rintro ⟨n, hd, h⟩
    exact ⟨_, arrayIn_eq.2 hd, h5Str_eq.2 ⟨n, rfl, h⟩⟩

theorem text0_eq {t : Tree R} {name s : String} :
    (do h5Str (← t.array name)) = .ok s ↔ HasText t [name] s := by
  show (t.array name >>= h5Str) = .ok s ↔ _
  rw [bind_eq_ok]
  unfold HasText
  constructor
  · rintro ⟨d, hd, h⟩
    obtain ⟨n, rfl, h'⟩ := h5Str_eq.1 h
    exact ⟨n, array_eq.1 hd, h'⟩
  · rintro ⟨n, hd, h⟩
    exact ⟨_, array_eq.2 hd, h5Str_eq.2 ⟨n, rfl, h⟩⟩

theorem first_eq {t : Tree R} {name : String} {a : Int} :
    (do (← t.array name).first) = .ok a ↔ HasFirst t [name] a := by
  show (t.array name >>= Data.first) = .ok a ↔ _
  rw [bind_eq_ok]
  unfold HasFirst
  constructor
  · rintro ⟨d, hd, h⟩
    unfold Data.first at h
    split at h
    · rename_i n a l; cases h; exact ⟨_, _, array_eq.1 hd⟩
    · cases h
    · cases h
  · rintro ⟨n, l, hd⟩
    exact ⟨_, array_eq.2 hd, rfl⟩

theorem flat_eq {t : Tree R} {name : String} {l : List Int} :
    (do (← t.arrayIn name).flat) = .ok l ↔ HasInts t [name, " data"] l := by
  show (t.arrayIn name >>= Data.flat) = .ok l ↔ _
  rw [bind_eq_ok]
  unfold HasInts
  constructor
  · rintro ⟨d, hd, h⟩
    unfold Data.flat at h
    split at h
    · cases h; exact ⟨_, _, arrayIn_eq.1 hd⟩
    · cases h
  · rintro ⟨n, l, hd⟩
    exact ⟨_, arrayIn_eq.2 hd, rfl⟩

theorem pair_eq {t : Tree R} {name : String} {r : Int × Int} :
    (do (← t.arrayIn name).pair) = .ok r ↔ HasRange t [name, " data"] r.1 r.2 := by
  show (t.arrayIn name >>= Data.pair) = .ok r ↔ _
  rw [bind_eq_ok]
  unfold HasRange
  constructor
  · rintro ⟨d, hd, h⟩
    unfold Data.pair at h
    split at h
    · cases h; exact ⟨_, arrayIn_eq.1 hd⟩
    · cases h
  · rintro ⟨n, hd⟩
    exact ⟨_, arrayIn_eq.2 hd, rfl⟩

theorem column_eq {t : Tree R} {name : String} {l : List R} :
    (do (← (← t.get "GridCoordinates").arrayIn name).column) = .ok l ↔
      HasReals t ["GridCoordinates", name, " data"] l := by
  show (t.get "GridCoordinates" >>= fun u => u.arrayIn name >>= Data.column) = .ok l ↔ _
  rw [bind_eq_ok]
  unfold HasReals
  simp only [hasData_cons (name := "GridCoordinates")]
  constructor
  · rintro ⟨u, hu, h⟩
    obtain ⟨d, hd, h⟩ := bind_eq_ok.1 h
    unfold Data.column at h
    split at h
    · cases h; exact ⟨_, u, get_eq.1 hu, arrayIn_eq.1 hd⟩
    · cases h
  · rintro ⟨n, u, hu, hd⟩
    exact ⟨u, get_eq.2 hu, bind_eq_ok.2 ⟨_, arrayIn_eq.2 hd, rfl⟩⟩

theorem count_eq {t : Tree R} {i n : Nat} :
    (do (← t.array " data").count i) = .ok n ↔
      ∃ a b l, HasData t [" data"] (.ints [a, b] l) ∧ i < a ∧ 0 < b ∧ l[i * b]? = some (n : Int) := by
  show (t.array " data" >>= Data.count i) = .ok n ↔ _
  rw [bind_eq_ok]
  constructor
  · rintro ⟨d, hd, h⟩
    unfold Data.count at h
    split at h
    · rename_i a b l
      split at h
      · rename_i hab
        split at h
        · rename_i m hm
          split at h
          · cases h
            refine ⟨a, b, l, array_eq.1 hd, hab.1, hab.2, ?_⟩
            rw [hm]; congr 1; omega
          · cases h
        · cases h
      · cases h
    · cases h
  · rintro ⟨a, b, l, hd, ha, hb, hl⟩
    refine ⟨_, array_eq.2 hd, ?_⟩
    unfold Data.count
    simp only
    rw [if_pos ⟨ha, hb⟩, hl]
    simp

theorem counts_eq {t : Tree R} {nnode ncell : Nat} :
    HasCounts t [" data"] nnode ncell ↔
      (do (← t.array " data").count 0) = .ok nnode ∧ (do (← t.array " data").count 1) = .ok ncell := by
  rw [count_eq, count_eq]
  unfold HasCounts
  constructor
  · rintro ⟨a, b, l, hd, ha, hb, h0, h1⟩
    exact ⟨⟨a, b, l, hd, by omega, by omega, by simpa using h0⟩, ⟨a, b, l, hd, by omega, by omega, by simpa using h1⟩⟩
  · rintro ⟨⟨a, b, l, hd, ha, hb, h0⟩, ⟨a', b', l', hd', ha', hb', h1⟩⟩
    have := hasData_unique hd hd'
    cases this
    exact ⟨a, b, l, hd, by omega, by omega, by simpa using h0, by simpa using h1⟩

theorem indexable_eq {d : Data R} {u : Unit} : d.indexable = .ok u ↔ ∃ n s, d.shape = n :: s ∧ 0 < n := by
  unfold Data.indexable
  cases hd : d.shape with
  | nil => simp
  | cons n s =>
    cases n with
    | zero => simp
    | succ n => simp

/-! ## Dictionaries of conditions -/

theorem filterMap_set {α : Type} (ks : List String) (hk : ks.Nodup) (f f' : String → Option (String × α)) (n : String) (v : α)
    (hn : n ∈ ks) (hf : ∀ k ∈ ks, ∃ w, f k = some (k, w)) (h1 : f' n = some (n, v)) (h2 : ∀ k ∈ ks, k ≠ n → f' k = f k) :
    ks.filterMap f' = Dict.set (ks.filterMap f) n v := by
  induction ks with
  | nil => cases hn
  | cons a t ih =>
    rw [List.nodup_cons] at hk
    obtain ⟨w, hw⟩ := hf a (by simp)
    by_cases ha : a = n
    · subst ha
      rw [List.filterMap_cons_some h1, List.filterMap_cons_some hw]
      simp only [Dict.set]
      congr 1
      apply List.filterMap_congr
      intro k hk'
      exact h2 k (by simp [hk']) (fun e => hk.1 (e ▸ hk'))
    · rw [List.filterMap_cons_some ((h2 a (by simp) ha).trans hw), List.filterMap_cons_some hw]
      simp only [Dict.set, ha, if_false]
      congr 1
      exact ih hk.2 (by simpa [Ne.symm ha] using hn) (fun k hk => hf k (by simp [hk])) fun k hk => h2 k (by simp [hk])

theorem mem_firstNames {l : List String} {n : String} : n ∈ firstNames l ↔ n ∈ l := by
  induction l with
  | nil => simp [firstNames]
  | cons a t ih =>
    simp only [firstNames, List.mem_cons, List.mem_filter, ih, decide_eq_true_eq]
    by_cases h : n = a <;> simp [h]

theorem firstNames_nodup (l : List String) : (firstNames l).Nodup := by
  induction l with
  | nil => simp [firstNames]
  | cons a t ih =>
    simp only [firstNames, List.nodup_cons]
    exact ⟨by simp, ih.filter _⟩

theorem firstNames_concat (l : List String) (n : String) :
    firstNames (l ++ [n]) = if n ∈ l then firstNames l else firstNames l ++ [n] := by
  induction l with
  | nil => simp [firstNames]
  | cons a t ih =>
    simp only [List.cons_append, firstNames, ih, List.mem_cons]
    by_cases h1 : n ∈ t
    · simp [h1]
    · by_cases h2 : n = a
      · subst h2; simp [h1]
      · simp [h1, h2]

theorem lastOfEach_concat {α : Type} (l : List (String × α)) (p : String × α) :
    lastOfEach (l ++ [p]) = Dict.set (lastOfEach l) p.1 p.2 := by
  obtain ⟨n, v⟩ := p
  have hf : ∀ k ∈ firstNames (l.map (·.1)), ∃ w, (l.reverse.find? fun p => decide (p.1 = k)) = some (k, w) := by
    intro k hk
    rw [mem_firstNames, List.mem_map] at hk
    obtain ⟨q, hq, e⟩ := hk
    cases h : l.reverse.find? fun p => decide (p.1 = k) with
    | none =>
      have := List.find?_eq_none.1 h q (List.mem_reverse.2 hq)
      simp [e] at this
    | some r =>
      have := List.find?_some h
      simp only [decide_eq_true_eq] at this
      exact ⟨r.2, by rw [← this]⟩
  have hf' : ∀ k, ((l ++ [(n, v)]).reverse.find? fun p => decide (p.1 = k)) =
      if k = n then some (n, v) else l.reverse.find? fun p => decide (p.1 = k) := by
    intro k
    rw [List.reverse_append]
    simp only [List.reverse_singleton, List.singleton_append, List.find?_cons]
    by_cases h : n = k
    · simp [h]
    · simp [h, Ne.symm h]
  by_cases hn : n ∈ l.map (·.1)
  · have e : firstNames ((l ++ [(n, v)]).map (·.1)) = firstNames (l.map (·.1)) := by
      rw [List.map_append, List.map_cons, List.map_nil, firstNames_concat, if_pos hn]
    unfold lastOfEach
    rw [e]
    exact filterMap_set _ (firstNames_nodup _) _ _ n v (mem_firstNames.2 hn) hf (by rw [hf', if_pos rfl])
      fun k _ hk => by rw [hf', if_neg hk]
  · have e : firstNames ((l ++ [(n, v)]).map (·.1)) = firstNames (l.map (·.1)) ++ [n] := by
      rw [List.map_append, List.map_cons, List.map_nil, firstNames_concat, if_neg hn]
    unfold lastOfEach
    rw [e, List.filterMap_append, Dict.set_of_not_mem]
    · congr 1
      · apply List.filterMap_congr
        intro k hk
        rw [hf', if_neg]
        rintro rfl
        exact hn (mem_firstNames.1 hk)
      · simp [hf']
    · intro hm
      obtain ⟨q, hq, hqn⟩ := List.mem_map.1 hm
      obtain ⟨k, hk, h⟩ := List.mem_filterMap.1 hq
      obtain ⟨w, hw⟩ := hf k hk
      rw [hw] at h
      cases h
      subst hqn
      exact hn (mem_firstNames.1 hk)

theorem lastOfEach_eq {α : Type} (l : List (String × α)) : l.foldl (fun d p => Dict.set d p.1 p.2) [] = lastOfEach l := by
  induction l using List.reverseRecOn with
  | nil => rfl
  | append_singleton l p ih => rw [List.foldl_append, ih, lastOfEach_concat]; rfl

theorem lastOfEach_nodup {α : Type} (l : List (String × α)) : ((lastOfEach l).map (·.1)).Nodup := by
  rw [← lastOfEach_eq]
  have : ∀ (l d : List (String × α)), (d.map (·.1)).Nodup → ((l.foldl (fun d p => Dict.set d p.1 p.2) d).map (·.1)).Nodup := by
    intro l
    induction l with
    | nil => intro d h; exact h
    | cons a t ih => intro d h; exact ih _ (Dict.nodup_keys_set h _ _)
  exact this l [] (by simp)

theorem foldl_set_self {α : Type} (l : List (String × α)) (h : (l.map (·.1)).Nodup) :
    l.foldl (fun d p => Dict.set d p.1 p.2) [] = l := by
  induction l using List.reverseRecOn with
  | nil => rfl
  | append_singleton l p ih =>
    rw [List.map_append, List.nodup_append] at h
    rw [List.foldl_append, ih h.1, List.foldl_cons, List.foldl_nil, Dict.set_of_not_mem]
    intro hm
    exact h.2.2 _ hm p.1 (by simp) rfl

theorem addConditions_fold {l : List (String × Tree R)} {d r : Dict String (Tree R)} :
    l.foldlM addConditions d = .ok r ↔ (∀ g ∈ l, IsGroup g.2) ∧
      r = (l.flatMap fun g => labelled g.2 "BC_t" ++ labelled g.2 "GridConnectivity_t").foldl (fun d p => d.set p.1 p.2) d := by
  induction l generalizing d with
  | nil =>
    simp only [List.foldlM_nil, List.flatMap_nil, List.foldl_nil]
    constructor
    · intro h; cases h; simp
    · rintro ⟨-, rfl⟩; rfl
  | cons g t ih =>
    rw [List.foldlM_cons, bind_eq_ok]
    simp only [List.flatMap_cons, List.foldl_append, List.mem_cons, forall_eq_or_imp]
    constructor
    · rintro ⟨d', hd, h⟩
      obtain ⟨h1, h2⟩ := ih.1 h
      unfold addConditions at hd
      obtain ⟨a, ha, hd⟩ := bind_eq_ok.1 hd
      obtain ⟨b, hb, hd⟩ := bind_eq_ok.1 hd
      obtain ⟨ga, rfl⟩ := dictCgnstype_eq.1 ha
      obtain ⟨gb, rfl⟩ := dictCgnstype_eq.1 hb
      cases hd
      rw [List.foldl_append] at h2
      exact ⟨⟨ga, h1⟩, h2⟩
    · rintro ⟨⟨h1, h2⟩, rfl⟩
      refine ⟨(labelled g.2 "BC_t" ++ labelled g.2 "GridConnectivity_t").foldl (fun d p => d.set p.1 p.2) d, ?_, ?_⟩
      · unfold addConditions
        rw [dictCgnstype_eq.2 ⟨h1, rfl⟩, dictCgnstype_eq.2 ⟨h1, rfl⟩]
        rfl
      · rw [ih]
        exact ⟨h2, by rw [List.foldl_append]⟩

/-! ## Zones -/

theorem isGroup_of_member {t u : Tree R} {name : String} (h : member t name = some u) : IsGroup t := by
  cases t with
  | group l i => exact ⟨_, _, rfl⟩
  | dataset l d => simp [member, members] at h

theorem zoneInit_eq {t : Tree R} {z : ZoneTree R} :
    zoneInit t = .ok z ↔ HasText t ["ZoneType", " data"] "Unstructured" ∧ (∀ g ∈ conditionGroups t, IsGroup g.2) ∧
      z = ⟨t, labelled t "Elements_t", conditions t⟩ := by
  constructor
  · intro h
    unfold zoneInit at h
    obtain ⟨d, hd, h⟩ := bind_eq_ok.1 h
    obtain ⟨s, hs, h⟩ := bind_eq_ok.1 h
    obtain ⟨u, hu, h'⟩ := bind_eq_ok.1 h
    rw [pyAssert_eq_ok, decide_eq_true_eq] at hu
    subst hu
    have h := h'
    obtain ⟨e, he, h⟩ := bind_eq_ok.1 h
    obtain ⟨b, hb, h⟩ := bind_eq_ok.1 h
    obtain ⟨g, hg, h⟩ := bind_eq_ok.1 h
    obtain ⟨c, hc, h⟩ := bind_eq_ok.1 h
    obtain ⟨-, rfl⟩ := dictCgnstype_eq.1 he
    obtain ⟨-, rfl⟩ := dictCgnstype_eq.1 hb
    obtain ⟨-, rfl⟩ := dictCgnstype_eq.1 hg
    obtain ⟨h1, rfl⟩ := addConditions_fold.1 hc
    cases h
    refine ⟨text_eq.1 (bind_eq_ok.2 ⟨d, hd, hs⟩), h1, ?_⟩
    rw [lastOfEach_eq]; rfl
  · rintro ⟨h1, h2, rfl⟩
    obtain ⟨d, hd, hs⟩ := bind_eq_ok.1 (text_eq.2 h1)
    have hg : IsGroup t := by
      obtain ⟨n, hn, -⟩ := h1
      obtain ⟨u, hu, -⟩ := hasData_cons.1 hn
      exact isGroup_of_member hu
    unfold zoneInit
    rw [hd]
    simp only [Except_bind_ok, hs]
    rw [show pyAssert (decide True) = .ok () from by simp [pyAssert]]
    simp only [Except_bind_ok]
    rw [dictCgnstype_eq.2 ⟨hg, rfl⟩, dictCgnstype_eq.2 ⟨hg, rfl⟩, dictCgnstype_eq.2 ⟨hg, rfl⟩]
    simp only [Except_bind_ok]
    rw [show List.foldlM addConditions [] (labelled t "ZoneBC_t" ++ labelled t "ZoneGridConnectivity_t") = _ from
      addConditions_fold.2 ⟨h2, rfl⟩]
    simp only [Except_bind_ok]
    rw [lastOfEach_eq]; rfl

theorem zones_fold {l : List (String × Tree R)} {d r : List (String × Tree R)} :
    l.foldlM (fun _ b => dictCgnstype b.2 "Zone_t") d = .ok r ↔ (∀ b ∈ l, IsGroup b.2) ∧
      r = match l.getLast? with | some b => labelled b.2 "Zone_t" | none => d := by
  induction l generalizing d with
  | nil =>
    simp only [List.foldlM_nil, List.getLast?_nil]
    constructor
    · intro h; cases h; simp
    · rintro ⟨-, rfl⟩; rfl
  | cons b t ih =>
    rw [List.foldlM_cons, bind_eq_ok]
    simp only [List.mem_cons, forall_eq_or_imp]
    constructor
    · rintro ⟨d', hd, h⟩
      obtain ⟨h1, h2⟩ := ih.1 h
      obtain ⟨g, rfl⟩ := dictCgnstype_eq.1 hd
      refine ⟨⟨g, h1⟩, ?_⟩
      rw [h2, List.getLast?_cons]
      cases t.getLast? <;> rfl
    · rintro ⟨⟨g, h1⟩, rfl⟩
      refine ⟨_, dictCgnstype_eq.2 ⟨g, rfl⟩, ih.2 ⟨h1, ?_⟩⟩
      rw [List.getLast?_cons]
      cases t.getLast? <;> rfl

theorem readTree_eq {root : Tree R} {zone : Option String} {dim : Int} {z : ZoneTree R} :
    readTree root zone = .ok (dim, z) ↔ ∃ t, Selected root zone dim t ∧
      HasText t ["ZoneType", " data"] "Unstructured" ∧ (∀ g ∈ conditionGroups t, IsGroup g.2) ∧
      (∃ n, (do (← t.array " data").count 1) = .ok n) ∧ z = ⟨t, labelled t "Elements_t", conditions t⟩ := by
  constructor
  · intro h
    unfold readTree at h
    obtain ⟨d, hd, h⟩ := bind_eq_ok.1 h
    obtain ⟨u, hu, h⟩ := bind_eq_ok.1 h
    obtain ⟨bases, hb, h⟩ := bind_eq_ok.1 h
    obtain ⟨gr, rfl⟩ := dictCgnstype_eq.1 hb
    obtain ⟨zones, hz, h⟩ := bind_eq_ok.1 h
    obtain ⟨gz, hz⟩ := zones_fold.1 hz
    obtain ⟨first, hf, h⟩ := bind_eq_ok.1 h
    obtain ⟨d1, hd1, h⟩ := bind_eq_ok.1 h
    obtain ⟨dim', hdim, h⟩ := bind_eq_ok.1 h
    obtain ⟨t, ht, h⟩ := bind_eq_ok.1 h
    obtain ⟨zt, hzt, h⟩ := bind_eq_ok.1 h
    obtain ⟨n, hn, h⟩ := bind_eq_ok.1 h
    cases h
    obtain ⟨h1, h2, h3⟩ := zoneInit_eq.1 hzt
    refine ⟨t, ⟨⟨d, arrayIn_eq.1 hd, indexable_eq.1 hu⟩, gz, ?_, ?_⟩, h1, h2, ⟨n, by rw [h3] at hn; exact hn⟩, h3⟩
    · cases hl : labelled root "CGNSBase_t" with
      | nil => rw [hl] at hf; cases hf
      | cons b l =>
        rw [hl] at hf
        cases hf
        exact ⟨b, rfl, first_eq.1 (bind_eq_ok.2 ⟨d1, hd1, hdim⟩)⟩
    · cases hl : (labelled root "CGNSBase_t").getLast? with
      | none =>
        rw [List.getLast?_eq_none_iff] at hl
        rw [hl] at hf; cases hf
      | some b =>
        rw [hl] at hz
        simp only at hz
        subst hz
        refine ⟨b, rfl, ?_⟩
        cases zone with
        | none =>
          simp only
          generalize labelled b.2 "Zone_t" = zs at ht ⊢
          match zs, ht with
          | [], ht => cases ht
          | [p], ht => cases ht; exact ⟨p.1, rfl⟩
          | _ :: _ :: _, ht => cases ht
        | some m =>
          simp only
          rw [show pickZone (some m) (labelled b.2 "Zone_t") = Dict.getE (labelled b.2 "Zone_t") m from rfl,
            Dict.getE_eq_ok, dict_find] at ht
          obtain ⟨q, hq, e⟩ := Option.map_eq_some_iff.1 ht
          have := List.find?_some hq
          simp only [decide_eq_true_eq] at this
          rw [hq, ← this, ← e]
  · rintro ⟨t, hs, h1, h2, ⟨n, hn⟩, rfl⟩
    obtain ⟨d, hd, hi⟩ := hs.version
    obtain ⟨b, hb, hf⟩ := hs.first
    obtain ⟨b', hb', hm⟩ := hs.last
    have gr : IsGroup root := by
      obtain ⟨u, hu, -⟩ := hasData_cons.1 hd
      exact isGroup_of_member hu
    unfold readTree
    rw [arrayIn_eq.2 hd]
    simp only [Except_bind_ok]
    rw [show d.indexable = .ok () from indexable_eq.2 hi, dictCgnstype_eq.2 ⟨gr, rfl⟩]
    simp only [Except_bind_ok]
    rw [zones_fold.2 ⟨hs.groups, rfl⟩]
    simp only [Except_bind_ok]
    rw [hb']
    obtain ⟨d1, hd1, hdim⟩ := bind_eq_ok.1 (first_eq.2 hf)
    have e1 : firstBase (labelled root "CGNSBase_t") = .ok b.2 := by
      cases hl : labelled root "CGNSBase_t" with
      | nil => rw [hl] at hb; cases hb
      | cons c l => rw [hl] at hb; cases hb; rfl
    have e2 : pickZone zone (labelled b'.2 "Zone_t") = .ok t := by
      cases zone with
      | none =>
        obtain ⟨m, hm⟩ := hm
        rw [hm]; rfl
      | some m =>
        simp only at hm
        rw [show pickZone (some m) (labelled b'.2 "Zone_t") = Dict.getE (labelled b'.2 "Zone_t") m from rfl,
          Dict.getE_eq_ok, dict_find, hm]; rfl
    rw [e1]
    simp only [Except_bind_ok]
    rw [hd1]
    simp only [Except_bind_ok]
    rw [hdim]
    simp only [Except_bind_ok]
    rw [e2]
    simp only [Except_bind_ok]
    rw [zoneInit_eq.2 ⟨h1, h2, rfl⟩]
    simp only [Except_bind_ok]
    rw [show (⟨t, labelled t "Elements_t", conditions t⟩ : ZoneTree R).ncell = .ok n from hn]
    rfl

/-! ## Sections -/

theorem code_kind {code : Int} {etype : String} (h : eleCgns2local.getE code = .ok etype) :
    ∃ k ∈ kinds, k.code = code ∧ k.name = etype ∧ dimElem.getE etype = .ok k.dim := by
  rw [Dict.getE_eq_ok] at h
  have h0 : ∀ p ∈ eleCgns2local, ∃ k ∈ kinds, k.code = p.1 ∧ k.name = p.2 ∧ dimElem.get? p.2 = some k.dim := by decide
  obtain ⟨k, hk, h1, h2, h3⟩ := h0 _ (Dict.mem_of_get? h)
  exact ⟨k, hk, h1, h2, Dict.getE_eq_ok.2 h3⟩

theorem addSectionTree_eq {needed : Int → Prop} (d : Int) (c : ElemConn) {q : String × Tree R} {p : String × Section}
    (hp : p.1 = q.1) (h : TellsSection needed q.2 p.2)
    (hn : ∀ k ∈ kinds, k.code = p.2.cgtype → (k.dim : Int) = d → needed p.2.cgtype) :
    addSectionTree d c q = addSection d c p := by
  obtain ⟨d1, hd1, hcode⟩ := bind_eq_ok.1 (first_eq.2 h.code)
  unfold addSectionTree
  rw [hd1]
  simp only [Except_bind_ok]
  rw [hcode]
  simp only [Except_bind_ok]
  cases he : eleCgns2local.getE p.2.cgtype with
  | error e =>
    simp only [Except_bind_error]
    unfold addSection
    rw [he]; rfl
  | ok etype =>
    obtain ⟨k, hk, h1, h2, h3⟩ := code_kind he
    simp only [Except_bind_ok]
    rw [h3]
    simp only [Except_bind_ok]
    by_cases hd : (k.dim : Int) = d
    · rw [if_pos hd]
      have hnd := hn k hk h1 hd
      obtain ⟨d2, hd2, hr⟩ := bind_eq_ok.1 (pair_eq (r := (p.2.first, p.2.last)).2 (h.range hnd))
      obtain ⟨d3, hd3, hc⟩ := bind_eq_ok.1 (flat_eq.2 (h.conn hnd))
      rw [hd2]
      simp only [Except_bind_ok]
      rw [hr]
      simp only [Except_bind_ok]
      rw [hd3]
      simp only [Except_bind_ok]
      rw [hc]
      simp only [Except_bind_ok]
      rw [← hp]
    · rw [if_neg hd]
      unfold addSection
      rw [he]
      simp only [Except_bind_ok]
      rw [h3, show nnodeElem.getE etype = .ok k.nodes from Dict.getE_eq_ok.2 (h2 ▸ (kinds_codes k hk).2.1)]
      simp only [Except_bind_ok]
      rw [if_neg hd]

theorem foldlM_forall₂ {α β γ : Type} {rel : α → β → Prop} {f : γ → α → Py γ} {g : γ → β → Py γ} {l : List α} {l' : List β}
    (h : List.Forall₂ rel l l') (hs : ∀ c a b, rel a b → f c a = g c b) (c : γ) : l.foldlM f c = l'.foldlM g c := by
  induction h generalizing c with
  | nil => rfl
  | cons hab _ ih =>
    rw [List.foldlM_cons, List.foldlM_cons, hs _ _ _ hab]
    congr 1
    funext c
    exact ih c

theorem foldlM_steps {α γ : Type} {f : γ → α → Py γ} {l : List α} {c r : γ} (h : l.foldlM f c = .ok r) :
    ∀ a ∈ l, ∃ c' r', f c' a = .ok r' := by
  induction l generalizing c with
  | nil => simp
  | cons a t ih =>
    rw [List.foldlM_cons] at h
    obtain ⟨c', h1, h2⟩ := bind_eq_ok.1 h
    simp only [List.mem_cons, forall_eq_or_imp]
    exact ⟨⟨c, c', h1⟩, ih h2⟩

theorem exists_forall₂ {α β : Type} {rel : α → β → Prop} {l : List α} (h : ∀ a ∈ l, ∃ b, rel a b) :
    ∃ l', List.Forall₂ rel l l' := by
  induction l with
  | nil => exact ⟨[], .nil⟩
  | cons a t ih =>
    obtain ⟨b, hb⟩ := h a (by simp)
    obtain ⟨l', hl⟩ := ih fun x hx => h x (by simp [hx])
    exact ⟨b :: l', .cons hb hl⟩

theorem addSectionTree_ok {d : Int} {c r : ElemConn} {q : String × Tree R} (h : addSectionTree d c q = .ok r) :
    ∃ k ∈ kinds, HasFirst q.2 [" data"] k.code ∧ ((k.dim : Int) = d → ∃ a b l,
      HasRange q.2 ["ElementRange", " data"] a b ∧ HasInts q.2 ["ElementConnectivity", " data"] l) := by
  unfold addSectionTree at h
  obtain ⟨d1, hd1, h⟩ := bind_eq_ok.1 h
  obtain ⟨code, hcode, h⟩ := bind_eq_ok.1 h
  obtain ⟨etype, he, h⟩ := bind_eq_ok.1 h
  obtain ⟨dim, hdim, h⟩ := bind_eq_ok.1 h
  obtain ⟨k, hk, h1, h2, h3⟩ := code_kind he
  rw [h3] at hdim
  cases hdim
  refine ⟨k, hk, h1 ▸ first_eq.1 (bind_eq_ok.2 ⟨d1, hd1, hcode⟩), fun hd => ?_⟩
  rw [if_pos hd] at h
  obtain ⟨d2, hd2, h⟩ := bind_eq_ok.1 h
  obtain ⟨rg, hrg, h⟩ := bind_eq_ok.1 h
  obtain ⟨d3, hd3, h⟩ := bind_eq_ok.1 h
  obtain ⟨l, hl, h⟩ := bind_eq_ok.1 h
  exact ⟨rg.1, rg.2, l, pair_eq.1 (bind_eq_ok.2 ⟨d2, hd2, hrg⟩), flat_eq.1 (bind_eq_ok.2 ⟨d3, hd3, hl⟩)⟩

/-! ## Conditions -/

theorem opt_some {α : Type} {t : Tree R} {name : String} {has : α → Prop} {v : Option α} (h : Opt t name has v)
    (hm : t.has name = true) : ∃ a, v = some a ∧ has a := by
  rw [has_eq] at hm
  rcases h with ⟨h, -⟩ | ⟨-, h⟩
  · rw [h] at hm; cases hm
  · exact h

theorem opt_none {α : Type} {t : Tree R} {name : String} {has : α → Prop} {v : Option α} (h : Opt t name has v)
    (hm : ¬ t.has name = true) : v = none := by
  rw [has_eq] at hm
  rcases h with ⟨-, h⟩ | ⟨h, -⟩
  · exact h
  · exact absurd h hm

theorem bcIndexTree_eq (z : Zone R) {t : Tree R} {b : Bc} (h : TellsBc t b) : bcIndexTree z.ncell t = bcIndex z b := by
  unfold bcIndexTree bcIndex
  by_cases hp : t.has "PointList" = true
  · obtain ⟨l, hl, hi⟩ := opt_some h.points hp
    obtain ⟨d, hd, hf⟩ := bind_eq_ok.1 (flat_eq.2 hi)
    rw [if_pos hp, hl, hd]
    simp only [Except_bind_ok]
    rw [hf]
    simp only [Except_bind_ok]
    have hg : gridLocation t = .ok (b.location.getD "Vertex") := by
      have hloc := h.location (by rw [hl]; rfl)
      unfold gridLocation
      by_cases hL : t.has "GridLocation" = true
      · obtain ⟨s, hs, ht⟩ := opt_some hloc hL
        rw [if_pos hL, hs]
        exact text_eq.2 ht
      · rw [if_neg hL, opt_none hloc hL]; rfl
    rw [hg]
    rfl
  · have hpn := opt_none h.points hp
    have hel := h.elems hpn
    rw [if_neg hp, hpn]
    by_cases hE : t.has "ElementList" = true
    · obtain ⟨l, hl, hi⟩ := opt_some hel hE
      obtain ⟨d, hd, hf⟩ := bind_eq_ok.1 (flat_eq.2 hi)
      rw [if_pos hE, hl, hd]
      simp only [Except_bind_ok]
      rw [hf]
      simp only [Except_bind_ok]
      split <;> rfl
    · rw [if_neg hE, opt_none hel hE]

theorem onFaces_of_index {z : Zone R} {b : Bc} {r : List Int × String × Bool} (h : bcIndex z b = .ok r)
    (hr : r.2.1 = "FaceCenter") : OnFaces z b := by
  unfold bcIndex at h
  split at h
  · rename_i l hl
    cases h
    left
    refine ⟨by rw [hl]; rfl, ?_⟩
    cases hb : b.location with
    | none =>
      rw [hb] at hr
      exact absurd (show "Vertex" = "FaceCenter" from hr) (by decide)
    | some s => rw [hb] at hr; exact congrArg some hr
  · rename_i l hl hl'
    simp only at h
    split at h
    · cases h; exact absurd (show "CellCenter" = "FaceCenter" from hr) (by decide)
    · rename_i hlen
      cases h
      exact .inr ⟨hl, l, hl', by simpa using hlen⟩
  · cases h

theorem exportBC_tree (so : List Int → List Int) (dim : Int) {zt : ZoneTree R} {z : Zone R} {q : String × Tree R} {b : Bc}
    (h : TellsBc q.2 b) (hn : zt.nnode = .ok z.nnode) (hc : zt.ncell = .ok z.ncell)
    (hf : OnFaces z b → zt.elemcon (dim - 1) = elemcon z (dim - 1)) :
    zt.exportBC so dim q = exportBC so dim z (q.1, b) := by
  have hname : bcName q = .ok (b.family.getD q.1) := by
    unfold bcName
    by_cases hF : q.2.has "FamilyName" = true
    · obtain ⟨s, hs, ht⟩ := opt_some h.family hF
      rw [if_pos hF, hs]
      exact text_eq.2 ht
    · rw [if_neg hF, opt_none h.family hF]; rfl
  obtain ⟨s, hs⟩ := h.type
  obtain ⟨d, hd, hs⟩ := bind_eq_ok.1 (text0_eq.2 hs)
  unfold ZoneTree.exportBC
  rw [hname]
  simp only [Except_bind_ok]
  rw [hd]
  simp only [Except_bind_ok]
  rw [hs]
  simp only [Except_bind_ok]
  rw [hc]
  simp only [Except_bind_ok]
  rw [bcIndexTree_eq z h]
  unfold exportBC
  simp only
  cases hb : bcIndex z b with
  | error e => rfl
  | ok r =>
    simp only [Except_bind_ok]
    by_cases h1 : r.2.1 = "FaceCenter"
    · rw [if_pos h1, if_pos h1, hf (onFaces_of_index hb h1)]
    · rw [if_neg h1, if_neg h1]
      by_cases h2 : r.2.1 = "Vertex"
      · rw [if_pos h2, if_pos h2, hn]
        rfl
      · rw [if_neg h2, if_neg h2]

theorem exportBC_tells {so : List Int → List Int} {dim : Int} {zt : ZoneTree R} {q : String × Tree R} {m : Mark}
    (h : zt.exportBC so dim q = .ok m) : ∃ b, TellsBc q.2 b := by
  unfold ZoneTree.exportBC at h
  obtain ⟨name, hname, h⟩ := bind_eq_ok.1 h
  obtain ⟨d, hd, h⟩ := bind_eq_ok.1 h
  obtain ⟨s, hs, h⟩ := bind_eq_ok.1 h
  obtain ⟨nc, hnc, h⟩ := bind_eq_ok.1 h
  obtain ⟨r, hr, -⟩ := bind_eq_ok.1 h
  clear h
  unfold bcName at hname
  have hfam : ∃ f, Opt q.2 "FamilyName" (HasText q.2 ["FamilyName", " data"]) f := by
    by_cases hF : q.2.has "FamilyName" = true
    · rw [if_pos hF] at hname
      exact ⟨some name, .inr ⟨by rw [← has_eq]; exact hF, name, rfl, text_eq.1 hname⟩⟩
    · refine ⟨none, .inl ⟨?_, rfl⟩⟩
      rw [has_eq] at hF
      simpa using hF
  obtain ⟨f, hfam⟩ := hfam
  have htype : ∃ s, HasText q.2 [" data"] s := ⟨s, text0_eq.1 (bind_eq_ok.2 ⟨d, hd, hs⟩)⟩
  unfold bcIndexTree at hr
  by_cases hp : q.2.has "PointList" = true
  · rw [if_pos hp] at hr
    obtain ⟨d, hd, hr⟩ := bind_eq_ok.1 hr
    obtain ⟨l, hl, hr⟩ := bind_eq_ok.1 hr
    obtain ⟨loc, hloc, hr⟩ := bind_eq_ok.1 hr
    have hl' : ∃ s, Opt q.2 "GridLocation" (HasText q.2 ["GridLocation", " data"]) s := by
      unfold gridLocation at hloc
      by_cases hL : q.2.has "GridLocation" = true
      · rw [if_pos hL] at hloc
        exact ⟨some loc, .inr ⟨by rw [← has_eq]; exact hL, loc, rfl, text_eq.1 hloc⟩⟩
      · refine ⟨none, .inl ⟨?_, rfl⟩⟩
        rw [has_eq] at hL
        simpa using hL
    obtain ⟨s, hl'⟩ := hl'
    exact ⟨⟨f, s, some l, none⟩, htype, hfam,
      .inr ⟨by rw [← has_eq]; exact hp, l, rfl, flat_eq.1 (bind_eq_ok.2 ⟨d, hd, hl⟩)⟩, fun _ => hl', fun h => by cases h⟩
  · have hpn : member q.2 "PointList" = none := by
      rw [has_eq] at hp
      simpa using hp
    rw [if_neg hp] at hr
    by_cases hE : q.2.has "ElementList" = true
    · rw [if_pos hE] at hr
      obtain ⟨d, hd, hr⟩ := bind_eq_ok.1 hr
      obtain ⟨l, hl, hr⟩ := bind_eq_ok.1 hr
      exact ⟨⟨f, none, none, some l⟩, htype, hfam, .inl ⟨hpn, rfl⟩, (fun h => by cases h),
        fun _ => .inr ⟨by rw [← has_eq]; exact hE, l, rfl, flat_eq.1 (bind_eq_ok.2 ⟨d, hd, hl⟩)⟩⟩
    · rw [if_neg hE] at hr; cases hr

/-! ## The mesh -/

theorem elemcon_tree {t : Tree R} {dim : Int} {z : Zone R} (h : TellsZone t dim z) (d : Int)
    (hd : d = dim ∨ (d = dim - 1 ∧ ∃ p ∈ z.bcs, OnFaces z p.2)) (bcs : Dict String (Tree R)) :
    (⟨t, labelled t "Elements_t", bcs⟩ : ZoneTree R).elemcon d = elemcon z d := by
  unfold ZoneTree.elemcon elemcon
  refine foldlM_forall₂ h.sections (fun c q p hqp => addSectionTree_eq d c hqp.1 hqp.2 ?_) _
  intro k hk hkc hkd
  refine ⟨k, hk, hkc, ?_⟩
  rcases hd with rfl | ⟨rfl, h⟩
  · exact .inl hkd
  · exact .inr ⟨hkd, h⟩

theorem forall₂_mem_right {α β : Type} {rel : α → β → Prop} {l : List α} {l' : List β} (h : List.Forall₂ rel l l') :
    List.Forall₂ (fun a b => rel a b ∧ b ∈ l') l l' := by
  induction h with
  | nil => exact .nil
  | cons hab _ ih => exact .cons ⟨hab, by simp⟩ (ih.imp fun a b hr => ⟨hr.1, by simp [hr.2]⟩)

theorem map_fst_eq {α β : Type} {rel : α → β → Prop} {l : List (String × α)} {l' : List (String × β)}
    (h : List.Forall₂ (fun q p => p.1 = q.1 ∧ rel q.2 p.2) l l') : l'.map (·.1) = l.map (·.1) := by
  induction h with
  | nil => rfl
  | cons hab _ ih => rw [List.map_cons, List.map_cons, hab.1, ih]

theorem tellsZone_names {t : Tree R} {dim : Int} {z : Zone R} (h : TellsZone t dim z) : (z.bcs.map (·.1)).Nodup := by
  rw [map_fst_eq h.bcs]
  exact lastOfEach_nodup _

theorem exportMesh_tree (so : List Int → List Int) {t : Tree R} {dim : Int} {z : Zone R} (h : TellsZone t dim z) :
    (⟨t, labelled t "Elements_t", conditions t⟩ : ZoneTree R).exportMesh so dim = exportMesh so dim z := by
  obtain ⟨hn, hc⟩ := counts_eq.1 h.counts
  have hn : (⟨t, labelled t "Elements_t", conditions t⟩ : ZoneTree R).nnode = .ok z.nnode := hn
  have hc : (⟨t, labelled t "Elements_t", conditions t⟩ : ZoneTree R).ncell = .ok z.ncell := hc
  have hx : (⟨t, labelled t "Elements_t", conditions t⟩ : ZoneTree R).coords = .ok (z.x, z.y, z.z) := by
    obtain ⟨g, hg, hx⟩ := bind_eq_ok.1 (column_eq.2 h.cx)
    obtain ⟨g', hg', hy⟩ := bind_eq_ok.1 (column_eq.2 h.cy)
    obtain ⟨g'', hg'', hz⟩ := bind_eq_ok.1 (column_eq.2 h.cz)
    rw [hg] at hg' hg''
    cases hg'; cases hg''
    obtain ⟨dx, hdx, hx⟩ := bind_eq_ok.1 hx
    obtain ⟨dy, hdy, hy⟩ := bind_eq_ok.1 hy
    obtain ⟨dz, hdz, hz⟩ := bind_eq_ok.1 hz
    unfold ZoneTree.coords
    simp only [hg, Except_bind_ok, hdx, hx, hdy, hy, hdz, hz]
    rfl
  unfold ZoneTree.exportMesh
  rw [hc]
  simp only [Except_bind_ok]
  rw [hn]
  simp only [Except_bind_ok]
  rw [hx]
  simp only [Except_bind_ok]
  rw [elemcon_tree h dim (.inl rfl)]
  unfold exportMesh
  congr 1
  funext m
  congr 1
  funext c
  have hd : bcDict z = z.bcs := by
    unfold bcDict
    rw [lastOfEach_eq]
    have := tellsZone_names h
    rw [← lastOfEach_eq]
    have := Cfd.Cgns.foldl_set_self z.bcs this
    exact this
  rw [hd]
  refine foldlM_forall₂ (forall₂_mem_right h.bcs) (fun m q p hqp => ?_) _
  unfold ZoneTree.addBC addBC
  rw [exportBC_tree so dim hqp.1.2 hn hc fun hf => elemcon_tree h (dim - 1) (.inr ⟨rfl, p, hqp.2, hf⟩) _]
  rw [← hqp.1.1]

/-- Reading a file with one zone. -/
theorem tellsFile_read (so : List Int → List Int) {root : Tree R} {dim : Int} {z : Zone R} (h : TellsFile root dim z) :
    ∃ zt, readTree root none = .ok (dim, zt) ∧ zt.ncell = .ok z.ncell ∧ zt.exportMesh so dim = exportMesh so dim z := by
  obtain ⟨t, hs, hz⟩ := h
  exact ⟨_, readTree_eq.2 ⟨t, hs, hz.type, hz.groups, ⟨_, (counts_eq.1 hz.counts).2⟩, rfl⟩, (counts_eq.1 hz.counts).2,
    exportMesh_tree so hz⟩

end Cfd.Cgns
