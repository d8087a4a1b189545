import Verif.Lemmas.Ic3V4
import Verif.Lemmas.Ic3Again

/-! Lemmas on the solutions of IC3 V4 files. -/

namespace Cfd.Ic3
open Spec Spec.Ic3

theorem isStat_iff (s : String) : isStat s = true ↔ StatName s := by
  unfold isStat StatName
  rw [List.any_eq_true]
  refine exists_congr fun x => and_congr_right fun _ => ?_
  rw [decide_eq_true_eq]
  constructor
  · rintro ⟨a, b, h⟩; exact ⟨a, b, h.symm⟩
  · rintro ⟨a, b, h⟩; exact ⟨a, b, h.symm⟩

theorem fieldV4_flat {n c : Nat} (cv : Conv) {a : NpArr} (hn : 0 < n) (h : Components n c a) :
    fieldV4 n (a.doubles cv) = .ok (flat cv n c a) := by
  obtain ⟨h1, h2⟩ := h
  unfold fieldV4 flat
  have hl : (a.doubles cv).length = n * c := by rw [doubles_length, h2]
  have hd : n * c / n = c := Nat.mul_div_cancel_left c hn
  simp only [hl, hd]
  by_cases hc : c = 1
  · subst hc
    have hne : (a.doubles cv).isEmpty = false := by
      cases hq : a.doubles cv with
      | nil => rw [hq] at hl; simp at hl; omega
      | cons _ _ => rfl
    simp [hne]
  · have hc1 : 1 < c := by omega
    have hm : n * c % c = 0 := Nat.mul_mod_left n c
    have hq : n * c / c = n := Nat.mul_div_cancel n (by omega)
    simp only [hc1, if_true, hm, hq, hc, if_false]

theorem createAll_ok {l d : List (String × List F64)} (h : createAll l = .ok d) : d = l ∧ (Dict.keys l).Nodup := by
  induction l generalizing d with
  | nil => simp only [createAll, Except.ok.injEq] at h; subst h; exact ⟨rfl, List.nodup_nil⟩
  | cons p t ih =>
      simp only [createAll, bind_eq_ok] at h
      obtain ⟨d', h1, h⟩ := h
      obtain ⟨rfl, i2⟩ := ih h1
      split at h
      · simp at h
      · rename_i hc
        simp only [Except_pure, Except.ok.injEq] at h
        refine ⟨h.symm, List.nodup_cons.2 ⟨?_, i2⟩⟩
        rw [List.contains_iff_mem] at hc
        exact hc

/-- The value read for a name. -/
def fieldRead (n : Nat) (data : Dict String (List F64)) (s : String) : NpArr :=
  ((data.get? s).bind fun l => (fieldV4 n l).toOption).getD ⟨[], .f64 []⟩

theorem foldlM_read {n : Nat} {data : Dict String (List F64)} (names : List String)
    (h : ∀ s ∈ names, ∃ l a, data.get? s = some l ∧ fieldV4 n l = .ok a) (d : Dict String NpArr) :
    names.foldlM (readVarV4 n data) d =
      .ok (names.foldl (fun d s => d.set s.toUpper (fieldRead n data s)) d) := by
  induction names generalizing d with
  | nil => rfl
  | cons s t ih =>
      obtain ⟨l, a, h1, h2⟩ := h s (List.mem_cons_self ..)
      have e : readVarV4 n data d s = .ok (d.set s.toUpper (fieldRead n data s)) := by
        unfold readVarV4 fieldRead
        simp only [Dict.getE, h1, Except_bind_ok, h2, Except_pure, Option.bind_some, Except.toOption, Option.getD_some]
      rw [List.foldlM_cons, e, Except_bind_ok, ih (fun y hy => h y (List.mem_cons_of_mem _ hy)), List.foldl_cons]

theorem fieldRead_eq {n : Nat} {data : Dict String (List F64)} {s : String} {l : List F64} {a : NpArr}
    (h1 : data.get? s = some l) (h2 : fieldV4 n l = .ok a) : fieldRead n data s = a := by
  unfold fieldRead
  simp only [h1, h2, Option.bind_some, Except.toOption, Option.getD_some]

theorem lower_names : "RHO".toLower = "rho" ∧ "RHOU".toLower = "rhou" ∧ "RHOE".toLower = "rhoe" := by
  decide +kernel

theorem upper_names : "rho".toUpper = "RHO" ∧ "rhou".toUpper = "RHOU" ∧ "rhoe".toUpper = "RHOE" := by
  decide +kernel

theorem sol_not_stat {s : String} (h : s ∈ ["RHO", "RHOU", "RHOE"]) : isStat s = false := by
  simp only [List.mem_cons, List.not_mem_nil, or_false] at h
  rcases h with rfl | rfl | rfl
  · exact (by decide +kernel : isStat "RHO" = false)
  · exact (by decide +kernel : isStat "RHOU" = false)
  · exact (by decide +kernel : isStat "RHOE" = false)

/-- What is written for the three conserved variables. -/
theorem solVars_ok {cv : Conv} {d : Dict String NpArr} {data : Dict String (List F64)} {r u e : NpArr}
    (hr : d.get? "RHO" = some r) (hu : d.get? "RHOU" = some u) (he : d.get? "RHOE" = some e)
    (h : solVars cv d = .ok data) :
    data = [("rho", r.doubles cv), ("rhou", u.doubles cv), ("rhoe", e.doubles cv)] := by
  have hall : (solNames.all fun x => d.keys.contains x) = true := by
    rw [List.all_eq_true]
    intro x hx
    rw [List.contains_iff_mem]
    apply Dict.mem_keys_iff.2
    simp only [solNames, List.mem_cons, List.not_mem_nil, or_false] at hx
    rcases hx with rfl | rfl | rfl
    · exact ⟨r, hr⟩
    · exact ⟨u, hu⟩
    · exact ⟨e, he⟩
  unfold solVars at h
  rw [if_pos hall] at h
  simp only [solNames, List.mapM_cons, List.mapM_nil, solEntry, Dict.getE, hr, hu, he, Except_bind_ok, Except_pure,
    Except.ok.injEq] at h
  rw [← h, lower_names.1, lower_names.2.1, lower_names.2.2]

/-- The part of the statistics. -/
theorem solStats_ok {cv : Conv} {params : Dict String SimVal} {d : Dict String NpArr} {o : Option StatsGroup}
    (h : solStats cv params d = .ok o) :
    (o = none ∧ d.filter (fun p => isStat p.1) = []) ∨
      ∃ g, o = some g ∧ g.data = (d.filter fun p => isStat p.1).map (fun p => (p.1.toLower, p.2.doubles cv)) ∧
        g.data.keys.Nodup ∧ g.wgts = params.filter (fun p => decide ("_wgt".toList <:+ p.1.toList)) := by
  unfold solStats at h
  simp only at h
  split at h
  · rename_i he
    simp only [Except.ok.injEq] at h
    exact .inl ⟨h.symm, List.isEmpty_iff.1 he⟩
  · simp only [bind_eq_ok, Except_pure, Except.ok.injEq] at h
    obtain ⟨w, hw, data, hd, rfl⟩ := h
    obtain ⟨rfl, h2⟩ := createAll_ok hd
    refine .inr ⟨_, rfl, rfl, h2, ?_⟩
    simp only
    generalize params.filter (fun p => decide ("_wgt".toList <:+ p.1.toList)) = l at hw
    clear hd h2
    induction l generalizing w with
    | nil => simp only [List.mapM_nil, Except_pure, Except.ok.injEq] at hw; exact hw.symm
    | cons p t ih =>
        simp only [List.mapM_cons, bind_eq_ok, Except_pure, Except.ok.injEq] at hw
        obtain ⟨x, ⟨v, hv, rfl⟩, w', hw', rfl⟩ := hw
        rw [ih w' hw']
        cases hp : p.2 with
        | wgts _ => rw [hp] at hv; simp [attrValue] at hv
        | int n => rw [hp] at hv; simp only [attrValue, Except.ok.injEq] at hv; subst hv; rw [← hp]
        | f64 n => rw [hp] at hv; simp only [attrValue, Except.ok.injEq] at hv; subst hv; rw [← hp]

theorem readVarsV4_ok {cv : Conv} {f : FullMesh} {n : Nat} {s : SolFile} {r u e : NpArr} (hn : 0 < n)
    (hkeys : f.cells.data.keys.Nodup)
    (hr : f.cells.data.get? "RHO" = some r) (hu : f.cells.data.get? "RHOU" = some u)
    (he : f.cells.data.get? "RHOE" = some e)
    (hcomp : ∀ p ∈ f.cells.data, SolName p.1 → ∃ c, Components n c p.2)
    (hup : ∀ p ∈ f.cells.data, StatName p.1 → UpperName p.1)
    (hdata : solVars cv f.cells.data = .ok s.data) (hstats : solStats cv f.params f.cells.data = .ok s.stats) :
    ∃ d, readVarsV4 n s = .ok d ∧
      (∀ name a c, f.cells.data.get? name = some a → SolName name → Components n c a →
        d.get? name = some (flat cv n c a)) ∧
      (∀ name, name ∈ d.keys → SolName name ∧ name ∈ f.cells.data.keys) := by
  have hs := solVars_ok hr hu he hdata
  obtain ⟨cr, hcr⟩ := hcomp _ (Dict.mem_of_get? hr) (.inl rfl)
  obtain ⟨cu, hcu⟩ := hcomp _ (Dict.mem_of_get? hu) (.inr (.inl rfl))
  obtain ⟨ce, hce⟩ := hcomp _ (Dict.mem_of_get? he) (.inr (.inr (.inl rfl)))
  have gr : s.data.get? "rho" = some (r.doubles cv) := by rw [hs]; rfl
  have gu : s.data.get? "rhou" = some (u.doubles cv) := by rw [hs]; rfl
  have ge : s.data.get? "rhoe" = some (e.doubles cv) := by rw [hs]; rfl
  have fr := fieldRead_eq gr (fieldV4_flat cv hn hcr)
  have fu := fieldRead_eq gu (fieldV4_flat cv hn hcu)
  have fe := fieldRead_eq ge (fieldV4_flat cv hn hce)
  have h1 : ["rho", "rhou", "rhoe"].foldlM (readVarV4 n s.data) [] =
      .ok [("RHO", flat cv n cr r), ("RHOU", flat cv n cu u), ("RHOE", flat cv n ce e)] := by
    rw [foldlM_read]
    · simp only [List.foldl_cons, List.foldl_nil, upper_names.1, upper_names.2.1, upper_names.2.2, fr, fu, fe]
      rfl
    · intro x hx
      simp only [List.mem_cons, List.not_mem_nil, or_false] at hx
      rcases hx with rfl | rfl | rfl
      · exact ⟨_, _, gr, fieldV4_flat cv hn hcr⟩
      · exact ⟨_, _, gu, fieldV4_flat cv hn hcu⟩
      · exact ⟨_, _, ge, fieldV4_flat cv hn hce⟩
  have huniq : ∀ {c c' : Nat} {a : NpArr}, Components n c a → Components n c' a → c = c' := by
    intro c c' a h h'
    exact Nat.eq_of_mul_eq_mul_left hn (h.2.symm.trans h'.2)
  have base : ∀ (t : Dict String NpArr) (name : String) (a : NpArr) (c : Nat), f.cells.data.get? name = some a →
      name ∈ ["RHO", "RHOU", "RHOE"] → Components n c a →
      Dict.get? (([("RHO", flat cv n cr r), ("RHOU", flat cv n cu u), ("RHOE", flat cv n ce e)] :
        Dict String NpArr) ++ t) name = some (flat cv n c a) := by
    intro t name a c hg hm hc
    simp only [List.mem_cons, List.not_mem_nil, or_false] at hm
    rcases hm with rfl | rfl | rfl
    · rw [hr] at hg; cases hg; rw [huniq hc hcr]; rfl
    · rw [hu] at hg; cases hg; rw [huniq hc hcu]; rfl
    · rw [he] at hg; cases hg; rw [huniq hc hce]; rfl
  have basek : ∀ name ∈ ["RHO", "RHOU", "RHOE"], SolName name ∧ name ∈ f.cells.data.keys := by
    intro name hm
    simp only [List.mem_cons, List.not_mem_nil, or_false] at hm
    rcases hm with rfl | rfl | rfl
    · exact ⟨.inl rfl, Dict.mem_keys_iff.2 ⟨_, hr⟩⟩
    · exact ⟨.inr (.inl rfl), Dict.mem_keys_iff.2 ⟨_, hu⟩⟩
    · exact ⟨.inr (.inr (.inl rfl)), Dict.mem_keys_iff.2 ⟨_, he⟩⟩
  have solmem : ∀ name, SolName name → name ∈ ["RHO", "RHOU", "RHOE"] ∨ StatName name := by
    intro name h
    rcases h with rfl | rfl | rfl | h
    · left; simp
    · left; simp
    · left; simp
    · exact .inr h
  unfold readVarsV4
  rw [h1, Except_bind_ok]
  rcases solStats_ok hstats with ⟨ho, hnone⟩ | ⟨g, ho, hgd, hgk, _⟩
  · rw [ho]
    refine ⟨_, rfl, ?_, ?_⟩
    · intro name a c hg hsol hc
      rcases solmem name hsol with hm | hm
      · have := base [] name a c hg hm hc
        rwa [List.append_nil] at this
      · exfalso
        have : (name, a) ∈ f.cells.data.filter fun p => isStat p.1 :=
          List.mem_filter.2 ⟨Dict.mem_of_get? hg, (isStat_iff name).2 hm⟩
        rw [hnone] at this
        simp at this
    · intro name hm
      exact basek name hm
  · rw [ho]
    simp only
    have hperm : (linkNames g.data).Perm ((f.cells.data.filter fun p => isStat p.1).map fun p => p.1.toLower) := by
      refine (List.perm_insertionSort _ _).trans (List.Perm.of_eq ?_)
      rw [hgd, Dict.keys, List.map_map]
      rfl
    have hup' : (((f.cells.data.filter fun p => isStat p.1).map fun p => p.1.toLower).map String.toUpper) =
        (f.cells.data.filter fun p => isStat p.1).map (·.1) := by
      rw [List.map_map]
      refine List.map_congr_left fun p hp => ?_
      obtain ⟨hp1, hp2⟩ := List.mem_filter.1 hp
      exact hup p hp1 ((isStat_iff _).1 hp2)
    have hstat : ∀ p ∈ f.cells.data, isStat p.1 = true → ∃ c, Components n c p.2 ∧
        g.data.get? p.1.toLower = some (p.2.doubles cv) ∧ fieldRead n g.data p.1.toLower = flat cv n c p.2 := by
      intro p hp hst
      obtain ⟨c, hc⟩ := hcomp p hp (.inr (.inr (.inr ((isStat_iff _).1 hst))))
      have hget : g.data.get? p.1.toLower = some (p.2.doubles cv) := by
        refine Dict.get?_of_mem hgk ?_
        rw [hgd]
        exact List.mem_map.2 ⟨p, List.mem_filter.2 ⟨hp, hst⟩, rfl⟩
      exact ⟨c, hc, hget, fieldRead_eq hget (fieldV4_flat cv hn hc)⟩
    have hmem : ∀ x ∈ linkNames g.data, ∃ p ∈ f.cells.data, isStat p.1 = true ∧ p.1.toLower = x := by
      intro x hx
      obtain ⟨p, hp, hpx⟩ := List.mem_map.1 (hperm.mem_iff.1 hx)
      obtain ⟨hp1, hp2⟩ := List.mem_filter.1 hp
      exact ⟨p, hp1, hp2, hpx⟩
    rw [foldlM_read]
    · have hnd : (Dict.keys ([("RHO", flat cv n cr r), ("RHOU", flat cv n cu u), ("RHOE", flat cv n ce e)] :
          Dict String NpArr) ++ (linkNames g.data).map String.toUpper).Nodup := by
        rw [List.nodup_append]
        refine ⟨(by decide : ["RHO", "RHOU", "RHOE"].Nodup), ?_, ?_⟩
        · rw [(hperm.map String.toUpper).nodup_iff, hup']
          exact hkeys.sublist (List.filter_sublist.map _)
        · intro a ha b hb
          rintro rfl
          have hb' := (hperm.map String.toUpper).mem_iff.1 hb
          rw [hup'] at hb'
          obtain ⟨p, hp, rfl⟩ := List.mem_map.1 hb'
          have := (List.mem_filter.1 hp).2
          rw [sol_not_stat ha] at this
          simp at this
      rw [foldl_set_new _ _ _ _ hnd]
      refine ⟨_, rfl, ?_, ?_⟩
      · intro name a c hg hsol hc
        rcases solmem name hsol with hm | hm
        · exact base _ name a c hg hm hc
        · have hst := (isStat_iff name).2 hm
          have hp := Dict.mem_of_get? hg
          obtain ⟨c', hc', h2, h3⟩ := hstat _ hp hst
          rw [huniq hc hc', ← h3]
          refine Dict.get?_of_mem ?_ ?_
          · rw [Dict.keys, List.map_append, List.map_map]; exact hnd
          · refine List.mem_append_right _ (List.mem_map.2 ⟨name.toLower, ?_, ?_⟩)
            · exact hperm.mem_iff.2 (List.mem_map.2 ⟨_, List.mem_filter.2 ⟨hp, hst⟩, rfl⟩)
            · simp only [Prod.mk.injEq, and_true]
              exact hup _ hp hm
      · intro name hm
        rw [Dict.keys, List.map_append, List.mem_append, List.map_map] at hm
        rcases hm with hm | hm
        · exact basek name hm
        · obtain ⟨x, hx, rfl⟩ := List.mem_map.1 hm
          obtain ⟨p, hp, hst, rfl⟩ := hmem x hx
          have := hup _ hp ((isStat_iff _).1 hst)
          unfold UpperName at this
          simp only [Function.comp_def]
          rw [this]
          exact ⟨.inr (.inr (.inr ((isStat_iff _).1 hst))), List.mem_map.2 ⟨p, hp, rfl⟩⟩
    · intro x hx
      obtain ⟨p, hp, hst, rfl⟩ := hmem x hx
      obtain ⟨c, hc, h2, _⟩ := hstat p hp hst
      exact ⟨_, _, h2, fieldV4_flat cv hn hc⟩

/-- Weights in the order of the reader. -/
def sortedW (g : StatsGroup) : Dict String SimVal := g.wgts.insertionSort fun a b => a.1 ≤ b.1

/-- Parameters read. -/
theorem readInfoV4_ok {cv : Conv} {f : FullMesh} {s : SolFile} (hpk : f.params.keys.Nodup)
    (hstep : attrValue ((f.params.get? "step").getD (.int 0)) = .ok s.step)
    (htime : attrValue ((f.params.get? "time").getD (.int 0)) = .ok s.time)
    (hstats : solStats cv f.params f.cells.data = .ok s.stats) (d : Dict String SimVal) :
    let p := (readInfoV4 s).foldl (fun d p => d.set p.1 p.2) d
    (∀ v, f.params.get? "step" = some v → p.get? "step" = some v) ∧
    (∀ v, f.params.get? "time" = some v → p.get? "time" = some v) ∧
    ((∃ s ∈ f.cells.data.keys, StatName s) → ∀ name v, WgtName name →
      f.params.get? name = some v → p.get? name = some v) := by
  have hattr : ∀ {a b : SimVal}, attrValue a = .ok b → b = a := by
    intro a b h
    cases a <;> simp [attrValue] at h <;> exact h.symm
  have hst : ∀ v, f.params.get? "step" = some v → s.step = v := by
    intro v hv
    rw [hv] at hstep
    exact hattr hstep
  have hti : ∀ v, f.params.get? "time" = some v → s.time = v := by
    intro v hv
    rw [hv] at htime
    exact hattr htime
  simp only
  rcases solStats_ok hstats with ⟨ho, hnone⟩ | ⟨g, ho, _, _, hgw⟩
  · have e : readInfoV4 s = [("step", s.step), ("time", s.time)] := by unfold readInfoV4; rw [ho]
    rw [e]
    have hk2 : (Dict.keys ([("step", s.step), ("time", s.time)] : Dict String SimVal)).Nodup :=
      (by decide : ["step", "time"].Nodup)
    simp only [foldl_set_dict _ d hk2]
    refine ⟨fun v hv => by rw [← hst v hv]; rfl, fun v hv => by rw [← hti v hv]; rfl, ?_⟩
    rintro ⟨x, hx, hxs⟩
    exfalso
    obtain ⟨p, hp, rfl⟩ := List.mem_map.1 hx
    have : p ∈ f.cells.data.filter fun p => isStat p.1 := List.mem_filter.2 ⟨hp, (isStat_iff _).2 hxs⟩
    rw [hnone] at this
    simp at this
  · have e : readInfoV4 s = (sortedW g).foldl (fun (d : Dict String SimVal) p => d.set p.1 p.2)
        ([("step", s.step), ("time", s.time)] : Dict String SimVal) := by unfold readInfoV4; rw [ho]; rfl
    have hperm : (sortedW g).Perm g.wgts := List.perm_insertionSort _ _
    have hwk : (Dict.keys g.wgts).Nodup := by
      rw [hgw]
      exact hpk.sublist (List.filter_sublist.map _)
    have hwk' : (Dict.keys (sortedW g)).Nodup := (hperm.map _).nodup_iff.2 hwk
    have hnot : ∀ x : String, ¬ "_wgt".toList <:+ x.toList → Dict.get? (sortedW g) x = none := by
      intro x hx
      rw [Dict.get?_eq_none_iff]
      intro hm
      have := (hperm.map Prod.fst).mem_iff.1 hm
      obtain ⟨p, hp, rfl⟩ := List.mem_map.1 this
      rw [hgw] at hp
      exact hx (by simpa using (List.mem_filter.1 hp).2)
    have hnd : (readInfoV4 s).keys.Nodup := by
      rw [e]
      have : ∀ (l d : Dict String SimVal), d.keys.Nodup → (Dict.keys (l.foldl (fun (d : Dict String SimVal) p => d.set p.1 p.2) d)).Nodup := by
        intro l
        induction l with
        | nil => exact fun d h => h
        | cons x t ih => exact fun d h => ih _ (Dict.nodup_keys_set h _ _)
      have hk2 : (Dict.keys ([("step", s.step), ("time", s.time)] : Dict String SimVal)).Nodup :=
        (by decide : ["step", "time"].Nodup)
      exact this _ _ hk2
    simp only [foldl_set_dict _ d hnd]
    have hget : ∀ x, (readInfoV4 s).get? x = match Dict.get? (sortedW g) x with
        | some v => some v
        | none => Dict.get? ([("step", s.step), ("time", s.time)] : Dict String SimVal) x := by
      intro x
      rw [e, foldl_set_dict _ _ hwk']
      cases Dict.get? (sortedW g) x <;> rfl
    refine ⟨fun v hv => ?_, fun v hv => ?_, fun _ name v hname hv => ?_⟩
    · rw [hget, hnot _ (by decide +kernel), ← hst v hv]; rfl
    · rw [hget, hnot _ (by decide +kernel), ← hti v hv]; rfl
    · have : Dict.get? (sortedW g) name = some v := by
        rw [get?_perm hperm hwk]
        refine Dict.get?_of_mem hwk ?_
        rw [hgw, List.mem_filter]
        refine ⟨Dict.mem_of_get? hv, ?_⟩
        obtain ⟨a, ha⟩ := hname
        simp only [decide_eq_true_eq]
        exact ⟨a, ha.symm⟩
      rw [hget, this]

end Cfd.Ic3
