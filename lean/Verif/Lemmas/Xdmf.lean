import Verif.Spec.Xdmf
import Verif.Lemmas.VtkMesh
import Std.Data.String.ToNat

/-! # Lemmas on HDF5 and XDMF dumps -/

namespace Cfd.Xdmf
open Cfd.Spec Cfd.Vtk Cfd.Spec.Vtk Cfd.Spec.Xdmf

variable {R V T : Type}

/-! ## Names of the groups -/

theorem groupName_toList (i : Nat) : (DataSetList.groupName i).toList =
    'i' :: (List.replicate (6 - (toString i).length) '0' ++ Nat.toDigits 10 i) := by
  unfold DataSetList.groupName
  simp [Nat.toList_repr]

theorem ofDigitChars_zeros (n : Nat) (l : List Char) :
    Nat.ofDigitChars 10 (List.replicate n '0' ++ l) 0 = Nat.ofDigitChars 10 l 0 := by
  induction n with
  | zero => rfl
  | succ n ih => rw [List.replicate_succ, List.cons_append, ← ih]; rfl

theorem groupName_inj {i j : Nat} (h : DataSetList.groupName i = DataSetList.groupName j) : i = j := by
  have h := congrArg String.toList h
  rw [groupName_toList, groupName_toList] at h
  have h := congrArg (fun l : List Char => Nat.ofDigitChars 10 (l.drop 1) 0) h
  simp only [List.drop_one, List.tail_cons, ofDigitChars_zeros] at h
  rwa [Nat.ofDigitChars_toDigits (by omega) (by omega), Nat.ofDigitChars_toDigits (by omega) (by omega)] at h

theorem groupName_slash (i : Nat) : ∀ c ∈ (DataSetList.groupName i).toList, c ≠ '/' := by
  rw [groupName_toList]
  intro c hc
  rw [List.mem_cons, List.mem_append, List.mem_replicate] at hc
  rintro rfl
  rcases hc with h | ⟨-, h⟩ | h
  · exact absurd h (by decide)
  · exact absurd h (by decide)
  · exact absurd (Nat.isDigit_of_mem_toDigits (by omega) (by omega) h) (by decide)

/-- Text after a group name: nothing or a slash. -/
def Tail (r : List Char) : Prop := r = [] ∨ ∃ s, r = '/' :: s

theorem slash_cancel {a b r r' : List Char} (ha : ∀ c ∈ a, c ≠ '/') (hb : ∀ c ∈ b, c ≠ '/') (hr : Tail r) (hr' : Tail r')
    (h : a ++ r = b ++ r') : a = b ∧ r = r' := by
  induction a generalizing b with
  | nil =>
    cases b with
    | nil => exact ⟨rfl, h⟩
    | cons y b =>
      rcases hr with rfl | ⟨s, rfl⟩
      · simp at h
      · simp only [List.nil_append, List.cons_append, List.cons.injEq] at h
        exact absurd h.1.symm (hb y (by simp))
  | cons x a ih =>
    cases b with
    | nil =>
      rcases hr' with rfl | ⟨s, rfl⟩
      · simp at h
      · simp only [List.nil_append, List.cons_append, List.cons.injEq] at h
        exact absurd h.1 (ha x (by simp))
    | cons y b =>
      simp only [List.cons_append, List.cons.injEq] at h
      obtain ⟨e1, e2⟩ := ih (fun c hc => ha c (by simp [hc])) (fun c hc => hb c (by simp [hc])) h.2
      exact ⟨by rw [h.1, e1], e2⟩

/-- Path of a group. -/
def gpath (i : Nat) : String := "/datalist/" ++ DataSetList.groupName i

/-- Path of a variable. -/
def vpath (i : Nat) (v : String) : String := gpath i ++ "/" ++ v

theorem gpath_toList (i : Nat) : (gpath i).toList = "/datalist/".toList ++ ((DataSetList.groupName i).toList ++ []) := by
  simp [gpath]

theorem vpath_toList (i : Nat) (v : String) :
    (vpath i v).toList = "/datalist/".toList ++ ((DataSetList.groupName i).toList ++ '/' :: v.toList) := by
  simp [vpath, gpath]

theorem gpath_inj {i j : Nat} (h : gpath i = gpath j) : i = j := by
  have h := congrArg String.toList h
  rw [gpath_toList, gpath_toList] at h
  exact groupName_inj (String.toList_inj.1 (slash_cancel (groupName_slash i) (groupName_slash j) (.inl rfl) (.inl rfl)
    (List.append_cancel_left h)).1)

theorem vpath_inj {i j : Nat} {v w : String} (h : vpath i v = vpath j w) : i = j ∧ v = w := by
  have h := congrArg String.toList h
  rw [vpath_toList, vpath_toList] at h
  obtain ⟨h1, h2⟩ := slash_cancel (groupName_slash i) (groupName_slash j) (.inr ⟨_, rfl⟩) (.inr ⟨_, rfl⟩)
    (List.append_cancel_left h)
  exact ⟨groupName_inj (String.toList_inj.1 h1), String.toList_inj.1 (List.cons.inj h2).2⟩

theorem gpath_ne_vpath {i j : Nat} {v : String} : gpath i ≠ vpath j v := by
  intro h
  have h := congrArg String.toList h
  rw [gpath_toList, vpath_toList] at h
  have := (slash_cancel (groupName_slash i) (groupName_slash j) (.inl rfl) (.inr ⟨_, rfl⟩) (List.append_cancel_left h)).2
  simp at this

/-! ## The file -/

/-- Names are different. -/
def Inv (f : H5 R V T) : Prop := f.groups.Nodup ∧ f.sets.keys.Nodup

theorem mkGroup_ok {f : H5 R V T} {p : String} (h1 : p ∉ f.groups) (h2 : p ∉ f.sets.keys) :
    f.mkGroup p = .ok { f with groups := f.groups ++ [p] } := by simp [H5.mkGroup, h1, h2]

theorem mkSet_ok {f : H5 R V T} {p : String} {x : Item R V} (h1 : p ∉ f.groups) (h2 : p ∉ f.sets.keys) :
    f.mkSet p x = .ok { f with sets := f.sets ++ [(p, x)] } := by simp [H5.mkSet, h1, h2]

theorem nodup_snoc {α : Type} {l : List α} {a : α} (h : l.Nodup) (ha : a ∉ l) : (l ++ [a]).Nodup := by
  rw [List.nodup_append]
  refine ⟨h, by simp, ?_⟩
  intro x hx y hy e
  rw [List.mem_singleton] at hy
  subst hy e
  exact ha hx

theorem mkGroup_inv {f f' : H5 R V T} {p : String} (h : f.mkGroup p = .ok f') (hf : Inv f) : Inv f' := by
  unfold H5.mkGroup at h
  split at h
  · cases h
  · rename_i hn
    cases h
    rw [not_or] at hn
    exact ⟨nodup_snoc hf.1 hn.1, hf.2⟩

theorem mkSet_inv {f f' : H5 R V T} {p : String} {x : Item R V} (h : f.mkSet p x = .ok f') (hf : Inv f) : Inv f' := by
  unfold H5.mkSet at h
  split at h
  · cases h
  · rename_i hn
    cases h
    rw [not_or] at hn
    refine ⟨hf.1, ?_⟩
    have := nodup_snoc hf.2 hn.2
    simpa [Dict.keys] using this

theorem foldlM_inv {α σ : Type} {I : σ → Prop} {step : σ → α → Py σ} (hs : ∀ s a s', step s a = .ok s' → I s → I s')
    (l : List α) {s s' : σ} (h : l.foldlM step s = .ok s') (hi : I s) : I s' := by
  induction l generalizing s with
  | nil => cases h; exact hi
  | cons a t ih =>
    rw [List.foldlM_cons] at h
    obtain ⟨s1, h1, h2⟩ := bind_eq_ok.1 h
    exact ih h2 (hs _ _ _ h1 hi)

theorem seriesHdf_inv {g : Grid (R × R × R)} {d : DataSetList V T} {h : H5 R V T} (hh : seriesHdf g d = .ok h) : Inv h := by
  unfold seriesHdf dumpHdf H5.writeUnsmesh at hh
  obtain ⟨m, -, hh⟩ := bind_eq_ok.1 hh
  obtain ⟨cells, -, hh⟩ := bind_eq_ok.1 hh
  obtain ⟨nodes, -, hh⟩ := bind_eq_ok.1 hh
  obtain ⟨f, hf, hh⟩ := bind_eq_ok.1 hh
  obtain ⟨f1, h1, hf⟩ := bind_eq_ok.1 hf
  obtain ⟨f2, h2, hf⟩ := bind_eq_ok.1 hf
  obtain ⟨f3, h3, hf⟩ := bind_eq_ok.1 hf
  obtain ⟨f4, h4, hh⟩ := bind_eq_ok.1 hh
  have i3 : Inv f3 := mkGroup_inv h3 (mkSet_inv h2 (mkGroup_inv h1 ⟨by simp, by simp [Dict.keys]⟩))
  have i4 : Inv f4 := mkGroup_inv h4 (foldlM_inv (I := Inv) (fun s a s' h hi => mkSet_inv h hi) _ hf i3)
  refine foldlM_inv (I := Inv) ?_ _ hh i4
  intro s p s' h hi
  unfold dumpStep at h
  obtain ⟨f, hf, h⟩ := bind_eq_ok.1 h
  have hi' := mkGroup_inv hf hi
  refine foldlM_inv (I := Inv) (fun s a s' h hi => mkSet_inv h hi) _ h ?_
  cases p.1.2 <;> exact hi'

theorem mkSets_ok {α : Type} (l : List α) (pth : α → String) (it : α → Item R V) (f : H5 R V T)
    (hn : (l.map pth).Nodup) (h : ∀ x ∈ l, pth x ∉ f.groups ∧ pth x ∉ f.sets.keys) :
    l.foldlM (fun f q => f.mkSet (pth q) (it q)) f = .ok { f with sets := f.sets ++ l.map fun q => (pth q, it q) } := by
  induction l generalizing f with
  | nil => simp [pure, Except.pure]
  | cons a t ih =>
    rw [List.foldlM_cons]
    have ha := h a (by simp)
    rw [List.map_cons, List.nodup_cons] at hn
    rw [mkSet_ok ha.1 ha.2]
    simp only [Except_bind_ok]
    have := ih { f with sets := f.sets ++ [(pth a, it a)] } hn.2 (by
      intro x hx
      refine ⟨(h x (by simp [hx])).1, ?_⟩
      simp only [Dict.keys, List.map_append, List.map_cons, List.map_nil, List.mem_append, List.mem_singleton, not_or]
      refine ⟨(h x (by simp [hx])).2, ?_⟩
      intro e
      exact hn.1 (e ▸ List.mem_map_of_mem hx))
    rw [this]
    simp

/-- Data sets of a step. -/
def stepSets (p : (Dict String V × Option T) × Nat) : List (String × Item R V) :=
  (stepVars p.1).map fun q => (vpath p.2 q.1, .data q.2)

theorem dumpSteps_ok (l : List ((Dict String V × Option T) × Nat)) (f : H5 R V T)
    (hi : (l.map (·.2)).Nodup) (hk : ∀ p ∈ l, p.1.1.keys.Nodup)
    (hg : ∀ p ∈ l, gpath p.2 ∉ f.groups ∧ gpath p.2 ∉ f.sets.keys ∧
      ∀ v, vpath p.2 v ∉ f.groups ∧ vpath p.2 v ∉ f.sets.keys) :
    ∃ times, l.foldlM dumpStep f = .ok ⟨f.groups ++ l.map fun p => gpath p.2, f.sets ++ l.flatMap stepSets, times⟩ := by
  induction l generalizing f with
  | nil => exact ⟨f.times, by simp [pure, Except.pure]⟩
  | cons p l ih =>
    rw [List.map_cons, List.nodup_cons] at hi
    have hp := hg p (by simp)
    have hstep : ∃ t, dumpStep f p = .ok ⟨f.groups ++ [gpath p.2], f.sets ++ stepSets p, t⟩ := by
      unfold dumpStep
      have hm : f.mkGroup (gpath p.2) = .ok { f with groups := f.groups ++ [gpath p.2] } := by
        simp [H5.mkGroup, hp]
      have hv : (stepVars p.1).map (fun q => vpath p.2 q.1) |>.Nodup := by
        have h0 : ((stepVars p.1).map (·.1)).Nodup := by
          have := hk p (by simp)
          unfold Dict.keys at this
          exact this.sublist (List.Sublist.map _ List.filter_sublist)
        have : (stepVars p.1).map (fun q => vpath p.2 q.1) = ((stepVars p.1).map (·.1)).map (vpath p.2) := by simp
        rw [this]
        exact h0.map_on fun a _ b _ e => (vpath_inj e).2
      have key : ∀ t0, ∃ t, (stepVars p.1).foldlM (fun (f : H5 R V T) q => f.mkSet (gpath p.2 ++ "/" ++ q.1) (.data q.2))
          ⟨f.groups ++ [gpath p.2], f.sets, t0⟩ = .ok ⟨f.groups ++ [gpath p.2], f.sets ++ stepSets p, t⟩ := by
        intro t0
        refine ⟨t0, ?_⟩
        exact mkSets_ok (stepVars p.1) (fun q => vpath p.2 q.1) (fun q => .data q.2) ⟨f.groups ++ [gpath p.2], f.sets, t0⟩ hv (by
          intro q hq
          refine ⟨?_, (hp.2.2 q.1).2⟩
          simp only [List.mem_append, List.mem_singleton, not_or]
          exact ⟨(hp.2.2 q.1).1, fun e => gpath_ne_vpath e.symm⟩)
      show ∃ t, (f.mkGroup (gpath p.2) >>= fun f => (stepVars p.1).foldlM
        (fun (f : H5 R V T) q => f.mkSet (gpath p.2 ++ "/" ++ q.1) (.data q.2)) (f.setTime (gpath p.2) p.1.2)) = _
      rw [hm]
      simp only [Except_bind_ok]
      cases p.1.2 with
      | none => exact key _
      | some t => exact key _
    obtain ⟨t, hstep⟩ := hstep
    rw [List.foldlM_cons, hstep]
    simp only [Except_bind_ok]
    obtain ⟨t', h'⟩ := ih ⟨f.groups ++ [gpath p.2], f.sets ++ stepSets p, t⟩ hi.2 (fun q hq => hk q (by simp [hq])) (by
      intro q hq
      have hne : q.2 ≠ p.2 := fun e => hi.1 (e ▸ List.mem_map_of_mem (f := (·.2)) hq)
      have hq' := hg q (by simp [hq])
      have hset : ∀ s, s ∈ Dict.keys (stepSets (R := R) p) → ∃ w, s = vpath p.2 w := by
        intro s hs
        simp only [Dict.keys, stepSets, List.map_map, List.mem_map, Function.comp_apply] at hs
        obtain ⟨w, -, rfl⟩ := hs
        exact ⟨_, rfl⟩
      have hkeys : Dict.keys (f.sets ++ stepSets p) = f.sets.keys ++ Dict.keys (stepSets (R := R) p) := by simp [Dict.keys]
      show (gpath q.2 ∉ f.groups ++ [gpath p.2]) ∧ gpath q.2 ∉ Dict.keys (f.sets ++ stepSets p) ∧
        ∀ v, vpath q.2 v ∉ f.groups ++ [gpath p.2] ∧ vpath q.2 v ∉ Dict.keys (f.sets ++ stepSets p)
      simp only [hkeys, List.mem_append, List.mem_singleton, not_or]
      refine ⟨⟨hq'.1, fun e => hne (gpath_inj e)⟩, ⟨hq'.2.1, ?_⟩, fun v => ⟨⟨(hq'.2.2 v).1, ?_⟩, (hq'.2.2 v).2, ?_⟩⟩
      · intro h; obtain ⟨w, e⟩ := hset _ h; exact gpath_ne_vpath e
      · intro e; exact gpath_ne_vpath e.symm
      · intro h; obtain ⟨w, e⟩ := hset _ h; exact hne (vpath_inj e).1)
    exact ⟨t', by rw [h']; simp⟩

/-- The types listed have cells. -/
theorem cellsDict_ne {P : Type} {g : Grid P} {p : Int × Arr2} (hp : p ∈ cellsDict g) : p.2.rows ≠ [] := by
  have hr : ∀ rows, (Arr2.ofRows rows).rows = rows := by intro rows; cases rows <;> rfl
  unfold cellsDict uniqueTypes at hp
  obtain ⟨t, ht, rfl⟩ := List.mem_map.1 hp
  rw [mem_npUnique] at ht
  obtain ⟨c, hc, rfl⟩ := List.mem_map.1 ht
  simp only [hr]
  intro e
  rw [List.map_eq_nil_iff, List.filter_eq_nil_iff] at e
  exact e c hc (by simp)

/-- A path of the mesh is not a path of the data. -/
theorem mesh_ne {s a b : String} (h : s = "/mesh" ++ a) : s ≠ "/datalist" ++ b := by
  intro e
  rw [h] at e
  have := congrArg String.toList e
  simp at this

/-- The whole file. -/
theorem seriesHdf_ok {g : Grid (R × R × R)} {d : DataSetList V T} (hg : KnownCells g)
    (hk : ∀ s ∈ d.steps, s.1.keys.Nodup) :
    ∃ h c, seriesHdf g d = .ok h ∧ ConnWF c ∧ SameCells g c ∧ c.tbl.keys = ((cellsDict g).map fun p => nameOf p.1) ∧
      h.groups = ["/mesh", "/mesh/cells", "/datalist"] ++ (List.range d.steps.length).map gpath ∧
      h.sets = ("/mesh/nodes", Item.nodes g.points) :: (c.tbl.map fun p => ("/mesh/cells/" ++ p.1, Item.cells p.2.e2n)) ++
        d.steps.zipIdx.flatMap stepSets := by
  obtain ⟨m, c, e, hc, w, s, k, al, nc, nn, co, bo, ke⟩ := exportMesh_ok hg
  unfold seriesHdf
  rw [e]
  simp only [Except_bind_ok]
  unfold dumpHdf nodesNd cellDict
  rw [hc, co]
  simp only [List.length_map, and_self, if_true, Except_bind_ok]
  have hz : (g.points.map (·.1)).zip ((g.points.map (·.2.1)).zip (g.points.map (·.2.2))) = g.points := by
    rw [List.zip_map', List.zip_map']
    simp
  rw [hz]
  have hcn : ((c.tbl.map fun p => (p.1, p.2.e2n)).map fun p => "/mesh/cells/" ++ p.1).Nodup := by
    have : ((c.tbl.map fun p => (p.1, p.2.e2n)).map fun p => "/mesh/cells/" ++ p.1) =
        c.tbl.keys.map fun t => "/mesh/cells/" ++ t := by simp [Dict.keys]
    rw [this]
    refine w.keys.map_on fun a _ b _ e => ?_
    have := congrArg String.toList e
    simp only [String.toList_append] at this
    exact String.toList_inj.1 (List.append_cancel_left this)
  have hu : H5.writeUnsmesh (⟨[], [], []⟩ : H5 R V T) (c.tbl.map fun p => (p.1, p.2.e2n)) g.points =
      .ok ⟨["/mesh", "/mesh/cells"], ("/mesh/nodes", Item.nodes g.points) ::
        (c.tbl.map fun p => ("/mesh/cells/" ++ p.1, Item.cells p.2.e2n)), []⟩ := by
    unfold H5.writeUnsmesh
    rw [mkGroup_ok (by simp) (by simp [Dict.keys])]
    simp only [Except_bind_ok]
    rw [mkSet_ok (by simp) (by simp [Dict.keys])]
    simp only [Except_bind_ok]
    rw [mkGroup_ok (by simp) (by simp [Dict.keys])]
    simp only [Except_bind_ok, List.nil_append, List.cons_append]
    rw [mkSets_ok _ (fun p : String × Arr2 => "/mesh/cells/" ++ p.1) (fun p => Item.cells p.2) _ hcn]
    · simp
    · intro x hx
      have h1 : ∀ s : String, "/mesh/cells/" ++ s ≠ "/mesh" ∧ "/mesh/cells/" ++ s ≠ "/mesh/cells" ∧
          "/mesh/cells/" ++ s ≠ "/mesh/nodes" := by
        intro s
        refine ⟨fun e => ?_, fun e => ?_, fun e => ?_⟩ <;> · have := congrArg String.toList e; simp at this
      simp [Dict.keys, h1 x.1]
  rw [hu]
  simp only [Except_bind_ok]
  have hkeys : Dict.keys (("/mesh/nodes", (Item.nodes g.points : Item R V)) ::
      (c.tbl.map fun p => ("/mesh/cells/" ++ p.1, Item.cells p.2.e2n))) =
      "/mesh/nodes" :: c.tbl.keys.map fun t => "/mesh/cells/" ++ t := by simp [Dict.keys]
  have hmesh : ∀ s ∈ "/mesh/nodes" :: (c.tbl.keys.map fun t => "/mesh/cells/" ++ t), ∃ a, s = "/mesh" ++ a := by
    intro s hs
    rw [List.mem_cons, List.mem_map] at hs
    rcases hs with rfl | ⟨t, -, rfl⟩
    · exact ⟨"/nodes", rfl⟩
    · exact ⟨"/cells/" ++ t, by rw [← String.append_assoc]; rfl⟩
  have hdat : ∀ b, "/datalist" ++ b ∉ "/mesh/nodes" :: (c.tbl.keys.map fun t => "/mesh/cells/" ++ t) := by
    intro b hb
    obtain ⟨a, ha⟩ := hmesh _ hb
    exact mesh_ne ha rfl
  have hgp : ∀ i, gpath i = "/datalist" ++ ("/" ++ DataSetList.groupName i) := by
    intro i; unfold gpath; rw [← String.append_assoc]; rfl
  have hvp : ∀ i v, vpath i v = "/datalist" ++ ("/" ++ DataSetList.groupName i ++ "/" ++ v) := by
    intro i v; unfold vpath; rw [hgp]; simp only [String.append_assoc]
  rw [mkGroup_ok (by simp) (by
    show "/datalist" ∉ Dict.keys (("/mesh/nodes", (Item.nodes g.points : Item R V)) ::
      (c.tbl.map fun p => ("/mesh/cells/" ++ p.1, Item.cells p.2.e2n)))
    rw [hkeys]
    exact hdat "")]
  simp only [Except_bind_ok]
  have hidx : d.steps.zipIdx.map (·.2) = List.range d.steps.length := by
    simp [List.zipIdx_eq_zip_range', List.range_eq_range', List.map_snd_zip]
  have hnd : ∀ i, gpath i ∉ ["/mesh", "/mesh/cells"] ++ ["/datalist"] := by
    intro i
    have h1 : gpath i ≠ "/datalist" := by
      intro e; have := congrArg String.toList e; rw [gpath_toList] at this; simp at this
    have h2 : gpath i ≠ "/mesh" := fun e => mesh_ne (a := "") (by rw [e]; rfl) (hgp i)
    have h3 : gpath i ≠ "/mesh/cells" := fun e => mesh_ne (a := "/cells") (by rw [e]; rfl) (hgp i)
    simp [h1, h2, h3]
  obtain ⟨times, h⟩ := dumpSteps_ok d.steps.zipIdx (⟨["/mesh", "/mesh/cells"] ++ ["/datalist"],
      ("/mesh/nodes", Item.nodes g.points) :: (c.tbl.map fun p => ("/mesh/cells/" ++ p.1, Item.cells p.2.e2n)), []⟩ : H5 R V T)
    (by rw [hidx]; exact List.nodup_range)
    (by
      intro p hp
      exact hk p.1 (by
        have := List.mem_map_of_mem (f := (·.1)) hp
        rwa [List.zipIdx_map_fst] at this))
    (by
      intro p hp
      simp only [hkeys]
      refine ⟨hnd _, ?_, fun v => ⟨?_, ?_⟩⟩
      · rw [hgp]; exact hdat _
      · have h1 : vpath p.2 v ≠ "/datalist" := by
          intro e; have := congrArg String.toList e; rw [vpath_toList] at this; simp at this
        have h2 : vpath p.2 v ≠ "/mesh" := fun e => mesh_ne (a := "") (by rw [e]; rfl) (hvp p.2 v)
        have h3 : vpath p.2 v ≠ "/mesh/cells" := fun e => mesh_ne (a := "/cells") (by rw [e]; rfl) (hvp p.2 v)
        simp [h1, h2, h3]
      · rw [hvp]; exact hdat _)
  refine ⟨_, c, h, w, s, ke, ?_, rfl⟩
  have : (d.steps.zipIdx.map fun p => gpath p.2) = (d.steps.zipIdx.map (·.2)).map gpath := by rw [List.map_map]; rfl
  rw [this, hidx]
  rfl

/-! ## Lines of the elements -/

theorem linesAll_eq (l : List Xml) : linesAll l = l.flatMap Xml.lines := by
  induction l with
  | nil => simp [linesAll]
  | cons x l ih => simp [linesAll, ih]

theorem okAll_iff (l : List Xml) : okAll l ↔ ∀ x ∈ l, x.Ok := by
  induction l with
  | nil => simp [okAll]
  | cons x l ih => simp [okAll, ih]

theorem intercalate_one (s : String) : String.intercalate " " [s] = s := rfl

/-- The geometry. -/
def geoXml (file : String) (g : Grid (R × R × R)) : Xml :=
  .elem "Geometry" [("GeometryType", "XYZ")] [dataItem [g.points.length * 3] file "/mesh/nodes"]

/-- The topology of a type. -/
def topoXml (file : String) (p : Int × Arr2) : Xml :=
  .elem "Topology" [("NumberOfElements", toString p.2.rows.length), ("TopologyType", (pyvista2xdmf.get? p.1).getD "")]
    [dataItem [p.2.rows.length * p.2.ncol.getD 1] file ("/mesh/cells/" ++ nameOf p.1)]

/-- A variable. -/
def attXml (shape : V → List Nat) (file : String) (i : Nat) (q : String × V) : Xml :=
  .elem "Attribute" [("AttributeType", if (shape q.2).length = 1 then "Scalar" else "Vector"), ("Center", "Cell"),
    ("Name", q.1)] [dataItem (shape q.2) file (vpath i q.1)]

/-- A step. -/
def gridXml (shape : V → List Nat) (file : String) (g : Grid (R × R × R)) (p : (Dict String V × Option T) × Nat) : Xml :=
  .elem "Grid" [("Name", "Unstructured Mesh")] (.empty "Time" [("Value", toString p.2)] :: geoXml file g ::
    ((cellsDict g).map (topoXml file) ++ (stepVars p.1).map (attXml shape file p.2)))

theorem topologyContent_ok {file : String} {p : Int × Arr2} {x : String} (h1 : pyvista2xdmf.get? p.1 = some x)
    (h2 : eleVtktype.getE p.1 = .ok (nameOf p.1)) : topologyContent file p = .ok (topoXml file p).lines := by
  unfold topologyContent
  rw [Dict.getE_eq_ok.2 h1, h2]
  simp only [Except_bind_ok, topoXml, h1, Option.getD_some, Xml.lines, linesAll, dataItem, pure, Except.pure,
    List.cons_append, List.nil_append, List.append_nil, Except.ok.injEq, List.cons.injEq, and_true]
  refine ⟨?_, ?_, ?_, ?_, ?_⟩ <;> exact String.toList_inj.1 (by simp [attrText, String.join, intercalate_one])

theorem geometryContent_ok {file : String} {g : Grid (R × R × R)} (hg : KnownCells g) (h3 : cellsOfType g 3 = []) :
    geometryContent g file = .ok ((geoXml file g).lines ++ linesAll ((cellsDict g).map (topoXml file))) := by
  unfold geometryContent
  rw [mapM_ok_of_forall (g := fun p => (topoXml file p).lines)]
  · simp only [Except_bind_ok, pure, Except.pure]
    congr 1
    rw [linesAll_eq, List.flatMap_map, List.flatMap_def]
    congr 1
    simp only [geoXml, Xml.lines, linesAll, dataItem, List.cons_append, List.nil_append, List.append_nil,
      List.cons.injEq, and_true]
    refine ⟨?_, ?_, ?_, ?_, ?_⟩ <;> exact String.toList_inj.1 (by simp [attrText, String.join, intercalate_one])
  · intro p hp
    obtain ⟨y, hy, e, er, -⟩ := cellsDict_known hg p hp
    have hne : p.2.rows ≠ [] := cellsDict_ne hp
    have : ∃ x, pyvista2xdmf.get? y.2.1 = some x := by
      have h0 : ∀ y ∈ vtkTypes, y.2.1 ≠ 3 → ∃ x ∈ pyvista2xdmf.vals, pyvista2xdmf.get? y.2.1 = some x := by decide
      obtain ⟨x, -, hx⟩ := h0 y hy (by rintro e3; rw [er, e3, h3] at hne; exact hne rfl)
      exact ⟨x, hx⟩
    obtain ⟨x, hx⟩ := this
    exact topologyContent_ok (by rw [e]; exact hx) (nameOf_getE hg p hp)

theorem attributeContent_ok {shape : V → List Nat} {file : String} {i : Nat} {q : String × V}
    (h : (shape q.2).length = 1 ∨ (shape q.2).length = 2) :
    attributeContent shape file i q = .ok (attXml shape file i q).lines := by
  have hl : ∀ typ, (if (shape q.2).length = 1 then "Scalar" else "Vector") = typ →
      Except.ok ["<Attribute AttributeType=\"" ++ typ ++ "\" Center=\"Cell\" Name=\"" ++ q.1 ++ "\">",
    "<DataItem Dimensions=\"" ++ String.intercalate " " ((shape q.2).map toString) ++ "\" Format=\"HDF\">",
    file ++ ":/datalist/" ++ DataSetList.groupName i ++ "/" ++ q.1, "</DataItem>", "</Attribute>"] =
    (Except.ok (attXml shape file i q).lines : Py (List String)) := by
    rintro typ ht
    simp only [attXml, ht, Xml.lines, linesAll, dataItem, List.cons_append, List.nil_append, List.append_nil,
      Except.ok.injEq, List.cons.injEq, and_true]
    refine ⟨?_, ?_, ?_, ?_, ?_⟩ <;> exact String.toList_inj.1 (by simp [attrText, String.join, vpath, gpath])
  unfold attributeContent
  rcases h with h | h
  · rw [h]; exact hl "Scalar" (by rw [if_pos h])
  · rw [h]; exact hl "Vector" (by rw [if_neg (by omega)])

theorem seriesXdmf_ok {shape : V → List Nat} {file : String} {g : Grid (R × R × R)} {d : DataSetList V T}
    (hg : KnownCells g) (h3 : cellsOfType g 3 = [])
    (hs : ∀ s ∈ d.steps, ∀ p ∈ s.1, p.1 ≠ "time" → (shape p.2).length = 1 ∨ (shape p.2).length = 2) :
    seriesXdmf shape g d file = .ok (xdmfDocument (d.steps.zipIdx.map (gridXml shape file g))).lines := by
  unfold seriesXdmf
  rw [geometryContent_ok hg h3]
  simp only [Except_bind_ok]
  unfold xdmfContent
  rw [mapM_ok_of_forall (g := fun p => (gridXml shape file g p).lines)]
  · simp only [Except_bind_ok, pure, Except.pure, xdmfDomain, xdmfDocument, Xml.lines, linesAll]
    rw [linesAll_eq, List.flatMap_map, List.flatMap_def]
    simp only [List.cons_append, List.nil_append, List.append_nil, List.append_assoc, Except.ok.injEq, List.cons.injEq,
      and_true, List.append_cancel_left_eq]
    refine ⟨?_, ?_, ?_, ?_, ?_, ?_⟩ <;> exact String.toList_inj.1 (by simp [attrText, String.join])
  · intro p hp
    have hp1 : p.1 ∈ d.steps := by
      have := List.mem_map_of_mem (f := (·.1)) hp
      rwa [List.zipIdx_map_fst] at this
    unfold stepContent
    rw [mapM_ok_of_forall (g := fun q => (attXml shape file p.2 q).lines)]
    · simp only [Except_bind_ok, pure, Except.pure, gridXml, Xml.lines, linesAll]
      rw [linesAll_eq, linesAll_eq, List.flatMap_append, List.flatMap_map, List.flatMap_map, List.flatMap_def, List.flatMap_def]
      simp only [List.cons_append, List.nil_append, List.append_assoc, Except.ok.injEq, List.cons.injEq,
        and_true, List.append_cancel_left_eq]
      refine ⟨?_, ?_, ?_⟩ <;> exact String.toList_inj.1 (by simp [attrText, String.join])
    · intro q hq
      unfold stepVars at hq
      rw [List.mem_filter] at hq
      exact attributeContent_ok (hs p.1 hp1 q hq.1 (by simpa using hq.2))

theorem plain_append {a b : String} (ha : Plain a) (hb : Plain b) : Plain (a ++ b) := by
  intro c hc
  rw [String.toList_append, List.mem_append] at hc
  rcases hc with hc | hc
  · exact ha c hc
  · exact hb c hc

theorem plain_nat (n : Nat) : Plain (toString n) := by
  intro c hc h
  rw [Nat.toString_eq_repr, Nat.toList_repr] at hc
  have := Nat.isDigit_of_mem_toDigits (by omega) (by omega) hc
  revert h
  simp only [special, List.mem_cons, List.not_mem_nil, or_false]
  rintro (rfl | rfl | rfl | rfl) <;> exact absurd this (by decide)

theorem mem_intercalate {α : Type} {c : α} {sep : List α} {l : List (List α)} (h : c ∈ sep.intercalate l) :
    c ∈ sep ∨ ∃ x ∈ l, c ∈ x := by
  induction l with
  | nil => simp at h
  | cons x l ih =>
    cases l with
    | nil => simp at h; exact .inr ⟨x, by simp, h⟩
    | cons y l =>
      rw [List.intercalate_cons_cons] at h
      simp only [List.mem_append] at h
      rcases h with (h | h) | h
      · exact .inr ⟨x, by simp, h⟩
      · exact .inl h
      · rcases ih h with h | ⟨z, hz, h⟩
        · exact .inl h
        · exact .inr ⟨z, by simp [hz], h⟩

theorem plain_dims (l : List Nat) : Plain (String.intercalate " " (l.map toString)) := by
  intro c hc
  rw [String.toList_intercalate] at hc
  rcases mem_intercalate hc with h | ⟨x, hx, h⟩
  · simp at h; subst h; decide
  · simp only [List.map_map, List.mem_map] at hx
    obtain ⟨n, -, rfl⟩ := hx
    exact plain_nat n c h

theorem plain_group (i : Nat) : Plain (gpath i) := by
  intro c hc h
  rw [gpath_toList, groupName_toList] at hc
  simp only [List.append_nil, List.mem_append, List.mem_cons, List.mem_replicate] at hc
  rcases hc with hc | hc | ⟨-, hc⟩ | hc
  · revert c; decide
  · subst hc; revert h; decide
  · subst hc; revert h; decide
  · exact plain_nat i c (by rw [Nat.toString_eq_repr, Nat.toList_repr]; exact hc) h

theorem attrsOk_of {l : List (String × String)} (ns : List String) (hl : l.map (·.1) = ns)
    (hn : ns.Nodup ∧ ∀ n ∈ ns, XmlName n) (hv : ∀ v ∈ l.map (·.2), Plain v) : AttrsOk l := by
  refine ⟨by rw [hl]; exact hn.1, fun a ha => ⟨hn.2 _ (hl ▸ List.mem_map_of_mem ha), hv _ (List.mem_map_of_mem ha)⟩⟩

theorem mapM_ok_or {α β : Type} {e : PyErr} (l : List α) (f : α → Py β) (h : ∀ x ∈ l, (∃ y, f x = .ok y) ∨ f x = .error e) :
    (∃ ys, l.mapM f = .ok ys) ∨ l.mapM f = .error e := by
  induction l with
  | nil => exact .inl ⟨[], rfl⟩
  | cons a t ih =>
    rw [List.mapM_cons]
    rcases h a (by simp) with ⟨y, hy⟩ | hy
    · rw [hy]
      rcases ih fun x hx => h x (by simp [hx]) with ⟨ys, h1⟩ | h1
      · rw [h1]; exact .inl ⟨_, rfl⟩
      · rw [h1]; exact .inr rfl
    · rw [hy]; exact .inr rfl

theorem mapM_error_of {α β : Type} {e : PyErr} (l : List α) (f : α → Py β) (h : ∀ x ∈ l, (∃ y, f x = .ok y) ∨ f x = .error e)
    (a : α) (ha : a ∈ l) (hf : f a = .error e) : l.mapM f = .error e := by
  rcases mapM_ok_or l f h with ⟨ys, h1⟩ | h1
  · obtain ⟨y, hy, e1⟩ := mapM_mem_ok h1 ha
    rw [hf] at e1; cases e1
  · exact h1

end Cfd.Xdmf
