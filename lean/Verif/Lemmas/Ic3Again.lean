import Verif.Lemmas.Ic3Round

/-! Parameters, data and marks of a mesh read from an IC3 file; writing it again. -/

namespace Cfd.Ic3
open Spec Spec.Ic3 ElemConn

/-! ## Parameters -/

theorem wgt_key_ne (s k : String) (hk : k = "step" ∨ k = "dt" ∨ k = "time" ∨ k = "wgt") :
    (s.toUpper ++ "_WGT").toLower ≠ k := by
  intro h
  have h1 := congrArg String.toList h
  unfold String.toLower at h1
  rw [String.toList_map, String.toList_append, List.map_append] at h1
  have e : List.map Char.toLower "_WGT".toList = ['_', 'w', 'g', 't'] := by decide
  rw [e] at h1
  have h2 := congrArg List.reverse h1
  rw [List.reverse_append] at h2
  rcases hk with rfl | rfl | rfl | rfl
  · have e : "step".toList = ['s', 't', 'e', 'p'] := by decide
    rw [e] at h2; simp at h2
  · have e : "dt".toList = ['d', 't'] := by decide
    rw [e] at h2; simp at h2
  · have e : "time".toList = ['t', 'i', 'm', 'e'] := by decide
    rw [e] at h2; simp at h2
  · have e : "wgt".toList = ['w', 'g', 't'] := by decide
    rw [e] at h2; simp at h2

theorem foldl_set_dict {V : Type} (l d : Dict String V) (h : l.keys.Nodup) (k : String) :
    (l.foldl (fun (d : Dict String V) p => d.set p.1 p.2) d).get? k =
      match l.get? k with
      | some v => some v
      | none => d.get? k := by
  induction l generalizing d with
  | nil => rfl
  | cons x t ih =>
    obtain ⟨a, v⟩ := x
    simp only [Dict.keys, List.map_cons, List.nodup_cons] at h
    rw [List.foldl_cons, ih _ h.2]
    by_cases hk : a = k
    · subst hk
      have : Dict.get? t a = none := Dict.get?_eq_none_iff.2 h.1
      rw [this]
      simp only [Dict.get?, if_true, Dict.get?_set_self]
    · simp only [Dict.get?, if_neg hk]
      rw [Dict.get?_set_ne _ _ (Ne.symm hk)]

theorem nodup_foldl_set {α V : Type} (l : List α) (key : α → String) (g : α → V) (d : Dict String V)
    (h : d.keys.Nodup) : (l.foldl (fun d p => d.set (key p) (g p)) d).keys.Nodup := by
  induction l generalizing d with
  | nil => exact h
  | cons x t ih => rw [List.foldl_cons]; exact ih _ (Dict.nodup_keys_set h _ _)

theorem infoRead_nodup (cv : Conv) (s : SimState) : (infoRead cv s).keys.Nodup :=
  nodup_foldl_set _ _ _ _ (by show ["step", "dt", "time", "wgt"].Nodup; decide)

theorem infoRead_get (cv : Conv) (s : SimState) :
    (infoRead cv s).get? "step" = some (.int (simIntD cv s.step)) ∧
    (infoRead cv s).get? "dt" = some (.f64 (simF64D cv s.dt)) ∧
    (infoRead cv s).get? "time" = some (.f64 (simF64D cv s.time)) ∧
    (infoRead cv s).get? "wgt" = some (.wgts []) := by
  unfold infoRead
  refine ⟨?_, ?_, ?_, ?_⟩
  · rw [foldl_set_get? _ _ _ _ "step" (fun x _ => wgt_key_ne _ _ (by simp))]; rfl
  · rw [foldl_set_get? _ _ _ _ "dt" (fun x _ => wgt_key_ne _ _ (by simp))]; rfl
  · rw [foldl_set_get? _ _ _ _ "time" (fun x _ => wgt_key_ne _ _ (by simp))]; rfl
  · rw [foldl_set_get? _ _ _ _ "wgt" (fun x _ => wgt_key_ne _ _ (by simp))]; rfl

theorem exported_params (v : Ver) (cv : Conv) (w : WState) (c : ElemConn) :
    (exported v cv w c).params.get? "step" = some (.int (simIntD cv w.sim.step)) ∧
    (exported v cv w c).params.get? "dt" = some (.f64 (simF64D cv w.sim.dt)) ∧
    (exported v cv w c).params.get? "time" = some (.f64 (simF64D cv w.sim.time)) ∧
    (exported v cv w c).params.get? "wgt" = some (.wgts []) := by
  obtain ⟨h1, h2, h3, h4⟩ := infoRead_get cv w.sim
  have hnd := infoRead_nodup cv w.sim
  unfold exported
  refine ⟨?_, ?_, ?_, ?_⟩ <;> (simp only; rw [foldl_set_dict _ _ hnd]; simp only [h1, h2, h3, h4])

/-! ## Data -/

theorem get?_map_keep (v : Ver) (cv : Conv) (d : Dict String NpArr) (k : String) :
    Dict.get? (d.map (keep v cv)) k = (d.get? k).map (stored v cv) := by
  induction d with
  | nil => rfl
  | cons x t ih =>
    simp only [List.map_cons, keep, Dict.get?]
    split
    · rfl
    · exact ih

theorem get?_perm {V : Type} {d d' : Dict String V} (hp : List.Perm d d') (hn : d'.keys.Nodup) (k : String) :
    d.get? k = d'.get? k := by
  have hnd : d.keys.Nodup := (hp.map Prod.fst).nodup_iff.2 hn
  cases h : d'.get? k with
  | some v => exact Dict.get?_of_mem hnd (hp.mem_iff.2 (Dict.mem_of_get? h))
  | none =>
    rw [Dict.get?_eq_none_iff] at h ⊢
    intro hk
    exact h ((hp.map Prod.fst).mem_iff.1 hk)

theorem cellPos {v : Ver} {w : WState} (hd : DataOK v w) :
    w.cells.data ≠ [] → 0 < (WState.dof v w * w.ncv).toNat := by
  intro h
  obtain ⟨h1, h2, _⟩ := hd.someCell h
  have : 0 < WState.dof v w * w.ncv := Int.mul_pos (by omega) (by omega)
  omega

theorem exported_cells {v : Ver} {cv : Conv} {w : WState} (c : ElemConn) (hd : DataOK v w) (k : String) :
    (exported v cv w c).cells.data.get? k = (w.cells.data.get? k).map (stored v cv) := by
  have pc := sorted_nodup hd.cellKeys hd.cells (cellPos hd)
  show Dict.get? (List.map _ _) k = _
  rw [get?_map_keep, get?_perm pc hd.cellKeys]

theorem exported_nodes {v : Ver} {cv : Conv} {w : WState} (c : ElemConn) (hd : DataOK v w) (k : String) :
    (exported v cv w c).nodes.get? k =
      ((w.nodes.get? k).filter fun a => decide (a.shape.length = 1)).map (stored v cv) := by
  show Dict.get? (List.map _ _) k = _
  rw [get?_map_keep]
  congr 1
  have hsc : ∀ p ∈ w.nodes, Scalar p.2 = decide (p.2.shape.length = 1) := by
    intro p hp
    have hg := hd.nodes p hp
    have hpos := hd.someNode (List.ne_nil_of_mem hp)
    rcases shape_cases hg with h | h | h
    · rw [h, (scalar_shape hg hpos h).1]; rfl
    · have h2 := vector_shape hg h
      have hz := hg.2
      rw [h2] at hz
      simp only [Scalar, h2, hz]
      simp; omega
    · have h2 := tensor_shape hg h
      have hz := hg.2
      rw [h2] at hz
      simp only [Scalar, h2, hz]
      simp; omega
  unfold scalars
  rw [List.filter_congr hsc]
  clear hsc
  have hk := hd.nodeKeys
  generalize w.nodes = d at hk
  induction d with
  | nil => rfl
  | cons x t ih =>
    simp only [Dict.keys, List.map_cons, List.nodup_cons] at hk
    by_cases hx : x.1 = k
    · simp only [Dict.get?, if_pos hx]
      rw [List.filter_cons]
      split
      · rename_i hs
        simp only [Dict.get?, if_pos hx, Option.filter, hs, if_true]
      · rename_i hs
        simp only [Option.filter, hs, Bool.false_eq_true, if_false]
        rw [Dict.get?_eq_none_iff]
        intro hmem
        obtain ⟨q, hq, e⟩ := List.mem_map.1 hmem
        exact hk.1 (by rw [hx, ← e]; exact List.mem_map.2 ⟨q, (List.mem_filter.1 hq).1, rfl⟩)
    · simp only [Dict.get?, if_neg hx]
      rw [List.filter_cons]
      split
      · simp only [Dict.get?, if_neg hx]; exact ih hk.2
      · exact ih hk.2

/-! ## Writing again what was read -/

theorem flatMap_filter_nil {α β : Type} (l : List α) (q : α → Bool) (c : α → List β)
    (h : ∀ x ∈ l, q x = false → c x = []) : l.flatMap c = (l.filter q).flatMap c := by
  induction l with
  | nil => rfl
  | cons x t ih =>
    rw [List.flatMap_cons, List.filter_cons, ih (fun y hy => h y (by simp [hy]))]
    split
    · rw [List.flatMap_cons]
    · rename_i hx
      rw [h x (by simp) (by simpa using hx), List.nil_append]

/-- The writers see in the data read what they saw in the data written: the arrays of one kind `q` are the
same, in the same order. -/
theorem flatMap_kept {n : Nat} {d : Dict String NpArr} {v : Ver} {cv : Conv} {cs cs' : String × NpArr → List (Py Bytes)}
    (q : NpArr → Bool) (hq : ∀ a, q (stored v cv a) = q a) (h0 : ∀ p ∈ d, q p.2 = false → cs p = [])
    (h0' : ∀ p ∈ d, q p.2 = false → cs' (keep v cv p) = []) (he : ∀ p ∈ d, q p.2 = true → cs' (keep v cv p) = cs p)
    (hg : ∀ p ∈ d, GoodArr n p.2) (hn : d ≠ [] → 0 < n)
    (hone : q = Scalar ∨ q = (fun a => decide (a.shape.length = 2)) ∨ q = (fun a => decide (a.shape.length = 3)))
    (sel : Dict String NpArr) (hsel : sel = scalars d ++ vectors d ++ tensors d) :
    (sel.map (keep v cv)).flatMap cs' = d.flatMap cs := by
  have hmem : ∀ p ∈ sel, p ∈ d := by
    intro p hp
    rw [hsel] at hp
    simp only [scalars, vectors, tensors, List.mem_append, List.mem_filter] at hp
    rcases hp with (hp | hp) | hp <;> exact hp.1
  rw [List.flatMap_map, flatMap_filter_nil sel (fun p => q p.2) _ (fun x hx hqx => h0' x (hmem x hx) hqx),
    flatMap_filter_nil d (fun p => q p.2) _ (fun x hx hqx => h0 x hx hqx)]
  have hf : sel.filter (fun p => q p.2) = d.filter (fun p => q p.2) := by
    have key : ∀ q' : NpArr → Bool, (∀ p ∈ d, q' p.2 = true → q p.2 = false) →
        ((d.filter fun p => q' p.2).filter fun p => q p.2) = [] := by
      intro q' hq'
      rw [List.filter_filter, List.filter_eq_nil_iff]
      intro p hp h
      simp only [Bool.and_eq_true] at h
      have := hq' p hp h.2
      rw [this] at h
      simp at h
    have self : ((d.filter fun p => q p.2).filter fun p => q p.2) = d.filter fun p => q p.2 := by
      rw [List.filter_filter]; simp
    have hsv : ∀ p ∈ d, Scalar p.2 = true → p.2.shape.length = 1 := by
      intro p hp h
      rw [(scalar_shape (hg p hp) (hn (List.ne_nil_of_mem hp)) h).1]; rfl
    rw [hsel, List.filter_append, List.filter_append]
    rcases hone with rfl | rfl | rfl
    · rw [show (scalars d).filter (fun p => Scalar p.2) = d.filter (fun p => Scalar p.2) from self,
        show (vectors d).filter (fun p => Scalar p.2) = [] from
          key (fun a => decide (a.shape.length = 2)) (fun p hp h => by
            by_contra hc
            have := hsv p hp (by simpa using hc)
            simp only [decide_eq_true_eq] at h; omega),
        show (tensors d).filter (fun p => Scalar p.2) = [] from
          key (fun a => decide (a.shape.length = 3)) (fun p hp h => by
            by_contra hc
            have := hsv p hp (by simpa using hc)
            simp only [decide_eq_true_eq] at h; omega)]
      simp
    · rw [show (scalars d).filter (fun p => decide (p.2.shape.length = 2)) = [] from
          key Scalar (fun p hp h => by have := hsv p hp h; simp; omega),
        show (vectors d).filter (fun p => decide (p.2.shape.length = 2)) =
          d.filter (fun p => decide (p.2.shape.length = 2)) from self,
        show (tensors d).filter (fun p => decide (p.2.shape.length = 2)) = [] from
          key (fun a => decide (a.shape.length = 3)) (fun p hp h => by
            simp only [decide_eq_true_eq] at h; simp; omega)]
      simp
    · rw [show (scalars d).filter (fun p => decide (p.2.shape.length = 3)) = [] from
          key Scalar (fun p hp h => by have := hsv p hp h; simp; omega),
        show (tensors d).filter (fun p => decide (p.2.shape.length = 3)) =
          d.filter (fun p => decide (p.2.shape.length = 3)) from self,
        show (vectors d).filter (fun p => decide (p.2.shape.length = 3)) = [] from
          key (fun a => decide (a.shape.length = 2)) (fun p hp h => by
            simp only [decide_eq_true_eq] at h; simp; omega)]
      simp
  rw [hf]
  have hcong : ∀ l : Dict String NpArr, (∀ p ∈ l, cs' (keep v cv p) = cs p) →
      l.flatMap (fun a => cs' (keep v cv a)) = l.flatMap cs := by
    intro l hl
    induction l with
    | nil => rfl
    | cons x t ih =>
      rw [List.flatMap_cons, List.flatMap_cons, hl x (by simp), ih (fun y hy => hl y (by simp [hy]))]
  apply hcong
  intro p hp
  have := List.mem_filter.1 hp
  exact he p this.1 this.2

theorem unstack_stack (l : List (F64 × F64 × F64)) :
    stackCoords (l.map (·.1), l.map (·.2.1), l.map (·.2.2)) = l := by
  induction l with
  | nil => rfl
  | cons x t ih =>
    simp only [stackCoords, List.map_cons, List.zip_cons_cons] at ih ⊢
    rw [ih]

/-- The state of the writer given the mesh read. -/
def again (v : Ver) (cv : Conv) (w : WState) (c : ElemConn) : WState :=
  { w with
    f2e := some (WState.rows w)
    part := some ⟨some (WState.npart w), .arr (WState.icv w)⟩
    bocos := w.bocos.map fun p => (p.1, readMark p)
    sim := ⟨.wgts [], .int (simIntD cv w.sim.step), .f64 (simF64D cv w.sim.dt), .f64 (simF64D cv w.sim.time)⟩
    cells := (exported v cv w c).cells
    nodes := (exported v cv w c).nodes }

theorem complete_exported {v : Ver} {cv : Conv} {w : WState} {c : ElemConn} (tbl : FaceTable)
    (so : List Int → List Int) (hz : ∀ p ∈ w.bocos, p.2.index = .range (markRange p.2).1 (markRange p.2).2) :
    completeMesh tbl so (exported v cv w c).mesh = .ok (exported v cv w c).mesh := by
  have hmem : ∀ p ∈ (exported v cv w c).mesh.bocos, p.2.nodebased = false ∧ isListIndex p.2.index = false := by
    intro p hp
    obtain ⟨b, hb, rfl⟩ := List.mem_map.1 hp
    rw [List.mem_append, List.mem_singleton] at hb
    rcases hb with hb | rfl
    · obtain ⟨q, hq, rfl⟩ := List.mem_map.1 hb
      refine ⟨by simp [readMark, Mark.nodebased], ?_⟩
      simp only [readMark]
      rw [hz q hq]; rfl
    · exact ⟨by simp [internalMark, Mark.nodebased], rfl⟩
  unfold completeMesh needFaces
  rw [if_neg (by simp [exported]), Except_bind_ok]
  unfold needFaceMarks
  rw [if_neg (by
    rw [List.any_eq_true]
    rintro ⟨p, hp, h⟩
    rw [(hmem p hp).1] at h
    simp at h), Except_bind_ok]
  unfold needUnmarked
  rw [if_neg (by simp [exported, Dict.keys]), Except_bind_ok]
  unfold needReindex
  rw [if_neg (by
    rw [List.any_eq_true]
    rintro ⟨p, hp, h⟩
    rw [(hmem p hp).2] at h
    simp at h)]

theorem setMesh_exported {v : Ver} {cv : Conv} {w : WState} {c : ElemConn} {l : List Face}
    (hc : w.coords.length = w.nno) (hm : MeshOK w) (hi : IsFaces ⟨c, some (some (l.map (·.2)))⟩ l)
    (hl : c.nelem = w.nfa) (hr : WState.rows w = l.map (·.2)) (h1 : w.noofa = l.map (fun x => (x.1.length : Int)))
    (h2 : w.noofaV = (l.map (·.1)).flatten) :
    setMesh (exported v cv w c) (exported v cv w c).mesh = .ok (again v cv w c) := by
  have hx : IsFaces ⟨c, some (some (WState.rows w))⟩ l := by rw [hr]; exact hi
  have he : exportCompressed c = .ok (csrOf (l.map (·.1))) := hi.export
  have hwf : writerFaces (exported v cv w c).mesh = .ok (csrOf (l.map (·.1)), some (WState.rows w)) := by
    unfold writerFaces
    rw [show (exported v cv w c).mesh.faces.get? "mixed" = some ⟨c, some (some (WState.rows w))⟩ from rfl]
    simp only [he, Except_bind_ok, Mesh.f2cConn]
    rfl
  obtain ⟨p1, p2, p3, p4⟩ := exported_params v cv w c
  have hs : setSimstate (exported v cv w c).params = (again v cv w c).sim := by
    unfold setSimstate
    rw [p1, p2, p3, p4]
    rfl
  have hbo : ((exported v cv w c).mesh.bocos.filter fun p => decide (p.2.type ≠ "internal")) =
      w.bocos.map fun p => (p.1, readMark p) := by
    show List.filter _ (List.map _ (w.bocos.map readMark ++ [internalMark w])) = _
    rw [List.map_append, List.filter_append, List.map_map]
    have e1 : List.filter (fun p : String × Mark => decide (p.2.type ≠ "internal"))
        (w.bocos.map ((fun b : Mark => (b.name, b)) ∘ readMark)) = w.bocos.map fun p => (p.1, readMark p) := by
      rw [List.filter_eq_self.2]
      · rfl
      · intro p hp
        obtain ⟨q, hq, rfl⟩ := List.mem_map.1 hp
        exact decide_eq_true (hm.markTypes q hq)
    rw [e1]
    simp [internalMark]
  unfold setMesh
  rw [show (exported v cv w c).mesh.coords = some (w.coords.map (·.1), w.coords.map (·.2.1), w.coords.map (·.2.2)) from rfl]
  simp only [unstack_stack, hwf, hs, hbo, Except_bind_ok, pyAssert,
    show (exported v cv w c).mesh.nnode = w.nno from rfl, hc, decide_true, if_true, Except_pure]
  congr 1
  have hd : diffs (csrOf (l.map (·.1))).index = w.noofa := by
    unfold csrOf
    rw [diffs_offsets, List.map_map, h1]
    rfl
  unfold again
  rw [hd, show (csrOf (l.map (·.1))).value = (l.map (·.1)).flatten from rfl, ← h2,
    show (exported v cv w c).mesh.nface = w.nfa from hl]
  rfl

section
variable (host : Order) (e : Endian)

theorem perio_twice {p : List F64} (h : p.length ≤ 16) (name : String) (id skip : Int) (idata : List Int) :
    mkHeader name id skip idata (p ++ List.replicate (16 - p.length) 0) = mkHeader name id skip idata p := by
  unfold mkHeader
  congr 1
  rw [List.length_append, List.length_replicate, show 16 - (p.length + (16 - p.length)) = 0 by omega]
  simp

theorem zone_again {p : String × Mark} (h1 : p.1 = p.2.name) (h2 : p.2.onFaces = true)
    (h3 : (p.2.perio.getD []).length ≤ 16) :
    zoneChunk host e (p.1, readMark p) = zoneChunk host e p := by
  unfold zoneChunk
  have e3 : ¬ (16 < ((p.2.perio.getD []) ++ List.replicate (16 - (p.2.perio.getD []).length) (0 : F64)).length) := by
    simp only [List.length_append, List.length_replicate]; omega
  have e4 : ¬ 16 < (p.2.perio.getD []).length := by omega
  have e5 : p.2.name = p.1 := h1.symm
  simp only [readMark, Mark.onFaces, Option.getD_some, if_neg e3, if_neg e4, secHeader, perio_twice h3, e5]
  unfold Mark.onFaces at h2
  rw [h2]
  rfl

theorem lastBoco_again (d : Dict String Mark) : lastBoco (d.map fun p => (p.1, readMark p)) = lastBoco d := by
  unfold lastBoco
  rw [List.foldl_map]
  rfl

theorem conn_again {v v' : Ver} {cv : Conv} {w : WState} {c : ElemConn} (hw : Written v' cv w)
    (hp : ∀ c ∈ partChunks host e w, ∃ x, c = .ok x) :
    connChunks host e v' (again v cv w c) = connChunks host e v' w := by
  unfold connChunks
  have e1 : checkChunks host e v' (again v cv w c) = checkChunks host e v' w := rfl
  have e2 : f2eChunk host e (again v cv w c).nfa (again v cv w c).f2e = f2eChunk host e w.nfa w.f2e := by
    show f2eChunk host e w.nfa (some (WState.rows w)) = _
    rw [← hw.rows]
  have e3 : (again v cv w c).bocos.map (zoneChunk host e) = w.bocos.map (zoneChunk host e) := by
    show List.map _ (List.map _ w.bocos) = _
    rw [List.map_map]
    refine List.map_congr_left fun p hp => ?_
    obtain ⟨h1, h2, _, _, h3⟩ := hw.zones p hp
    exact zone_again host e h1 h2 h3
  have e4 : internalChunk host e (again v cv w c) = internalChunk host e w := by
    unfold internalChunk
    rw [show (again v cv w c).bocos = w.bocos.map fun p => (p.1, readMark p) from rfl, lastBoco_again]
    rfl
  have e5 : partChunks host e (again v cv w c) = partChunks host e w := by
    unfold partChunks at hp ⊢
    cases hwp : w.part with
    | none => rw [hwp] at hp; simp at hp
    | some p =>
      rw [hwp] at hp
      obtain ⟨np, icv⟩ := p
      simp only [again, WState.npart, WState.icv, hwp]
      cases icv with
      | missing => rfl
      | arr l => rfl
      | null => simp [icvChunk] at hp
  rw [e1, e2, e3, e4, e5]
  rfl

theorem info_again {v v' : Ver} {cv : Conv} {w : WState} {c : ElemConn} (hw : Written v' cv w)
    (hwg : wgtsOf w.sim.wgt = []) :
    infoChunks host e cv (again v cv w c).sim = infoChunks host e cv w.sim := by
  obtain ⟨n, hn⟩ := hw.step
  obtain ⟨x, hx⟩ := hw.dt
  obtain ⟨t, ht⟩ := hw.time
  have hg := hw.wgt
  rw [hwg] at hg
  have e1 : simIntD cv w.sim.step = n := by unfold simIntD; rw [hn]
  have e2 : simF64D cv w.sim.dt = x := by unfold simF64D; rw [hx]
  have e3 : simF64D cv w.sim.time = t := by unfold simF64D; rw [ht]
  unfold infoChunks stepChunk realChunk
  rw [hn, hx, ht, hg]
  simp only [again, e1, e2, e3, Except_bind_ok]
  rfl

theorem scalar_stored (v : Ver) (cv : Conv) (a : NpArr) : Scalar (stored v cv a) = Scalar a := by
  unfold Scalar
  rw [stored_shape, stored_size]

theorem doubles_stored {v : Ver} (cv : Conv) (a : NpArr) : (stored v cv a).doubles cv = a.doubles cv := by
  unfold stored
  split <;> rfl

theorem whenScalar_false {a : NpArr} {cs : List (Py Bytes)} (h : Scalar a = false) (hs : a.shape ≠ []) :
    whenScalar a cs = [] := by
  unfold whenScalar NpArr.isScalar
  unfold Scalar at h
  cases ha : a.shape with
  | nil => exact absurd ha hs
  | cons n t => rw [ha] at h; simp only at h; simp only [h]

theorem GoodArr.ne_nil {n : Nat} {a : NpArr} (h : GoodArr n a) : a.shape ≠ [] := by
  rcases h.1 with h | h | h <;> rw [h] <;> simp

theorem scalarV3_again {cv : Conv} {idF idI : Int} {n : Nat} {idata : List Int} {p : String × NpArr}
    (hs : p.2.shape.length = 1) (hr : Ready .v3 p.2) (hsc : Scalar p.2 = true) :
    scalarV3 host e idF idI n idata (keep .v3 cv p) = scalarV3 host e idF idI n idata p := by
  unfold scalarV3
  rw [whenScalar_mem hsc, whenScalar_mem (show Scalar (keep .v3 cv p).2 = true by
    rw [show (keep .v3 cv p).2 = stored .v3 cv p.2 from rfl, scalar_stored, hsc])]
  rcases hr rfl with ⟨l, hl⟩ | ⟨l, hl, _⟩
  · obtain ⟨name, ⟨shape, data⟩⟩ := p
    simp only at hl
    subst hl
    rfl
  · obtain ⟨name, ⟨shape, data⟩⟩ := p
    simp only at hl hs
    subst hl
    unfold keep stored
    rw [if_pos ⟨rfl, rfl, hs⟩]

/-- Chunks of node data that only depend on what is kept. -/
theorem nodes_again {v : Ver} {cv : Conv} {w : WState} {c : ElemConn} (cs : String × NpArr → List (Py Bytes))
    (h1 : ∀ p ∈ w.nodes, Scalar p.2 = true → cs (keep v cv p) = cs p)
    (h2 : ∀ p ∈ w.nodes, Scalar p.2 = false → cs p = []) :
    (again v cv w c).nodes.flatMap cs = w.nodes.flatMap cs := by
  show ((scalars w.nodes).map (keep v cv)).flatMap cs = _
  rw [flatMap_filter_nil w.nodes (fun p => Scalar p.2) cs h2, List.flatMap_map]
  show (scalars w.nodes).flatMap _ = (scalars w.nodes).flatMap cs
  have : ∀ p ∈ scalars w.nodes, cs (keep v cv p) = cs p := by
    intro p hp
    have := List.mem_filter.1 hp
    exact h1 p this.1 this.2
  generalize scalars w.nodes = l at this
  induction l with
  | nil => rfl
  | cons x t ih =>
    rw [List.flatMap_cons, List.flatMap_cons, this x (by simp), ih (fun y hy => this y (by simp [hy]))]

/-- Chunks of cell data that only depend on what is kept. -/
theorem cells_again {v : Ver} {cv : Conv} {w : WState} {c : ElemConn} (hd : DataOK v w)
    (q : NpArr → Bool) (cs : String × NpArr → List (Py Bytes))
    (h1 : q = Scalar ∨ q = (fun a => decide (a.shape.length = 2)) ∨ q = (fun a => decide (a.shape.length = 3)))
    (h3 : ∀ p, p.2.shape ≠ [] → q p.2 = false → cs p = [])
    (h4 : ∀ p ∈ w.cells.data, q p.2 = true → cs (keep v cv p) = cs p) :
    (again v cv w c).cells.data.flatMap cs = w.cells.data.flatMap cs := by
  have h2 : ∀ a, q (stored v cv a) = q a := by
    intro a
    rcases h1 with rfl | rfl | rfl
    · exact scalar_stored _ _ a
    · simp only; rw [stored_shape]
    · simp only; rw [stored_shape]
  show ((scalars w.cells.data ++ vectors w.cells.data ++ tensors w.cells.data).map (keep v cv)).flatMap cs = _
  refine flatMap_kept (n := (WState.dof v w * w.ncv).toNat) q h2 ?_ ?_ h4 hd.cells (cellPos hd) h1 _ rfl
  · intro p hp hq
    exact h3 p (GoodArr.ne_nil (hd.cells p hp)) hq
  · intro p hp hq
    refine h3 (keep v cv p) ?_ ?_
    · show (stored v cv p.2).shape ≠ []
      rw [stored_shape]
      exact GoodArr.ne_nil (hd.cells p hp)
    · show q (stored v cv p.2) = false
      rw [h2, hq]

theorem node_vectors {cv : Conv} {n : Nat} (d : Dict String NpArr) (h : ∀ p ∈ d, p.2.shape.length ≠ 2) :
    d.flatMap (vectorV2 host e cv cNoD3 n) = [] := by
  rw [List.flatMap_eq_nil_iff]
  intro p hp
  unfold vectorV2
  rw [if_neg (h p hp)]

theorem node_vectors_again {v : Ver} {cv : Conv} {w : WState} {c : ElemConn} (hnv : ∀ p ∈ w.nodes, p.2.shape.length ≠ 2) :
    (again v cv w c).nodes.flatMap (vectorV2 host e cv cNoD3 w.nno) = [] := by
  apply node_vectors
  intro p hp
  obtain ⟨q, hq, rfl⟩ := List.mem_map.1 hp
  have := hnv q (List.mem_filter.1 hq).1
  show (stored v cv q.2).shape.length ≠ 2
  rw [stored_shape]; exact this

/-- The second version, written from what the first has kept: V2 holds no more than V3; V3 needs reals only with one
degree of freedom when V2 came first. -/
theorem var_again {v v' : Ver} {cv : Conv} {w : WState} {c : ElemConn} (hd : DataOK v w)
    (hrn : ∀ p ∈ w.nodes, Scalar p.2 = true → Ready v' p.2)
    (hrc : ∀ p ∈ w.cells.data, Scalar p.2 = true → Ready v' p.2)
    (hnv : ∀ p ∈ w.nodes, p.2.shape.length ≠ 2)
    (hat : v' = .v3 → w.cells.data ≠ [] → w.cells.attrs ≠ none)
    (hvv : v' = .v3 → v = .v2 → (∀ p ∈ w.nodes, ∃ l, p.2.data = .f64 l) ∧ (∀ p ∈ w.cells.data, ∃ l, p.2.data = .f64 l) ∧
      ∀ a, w.cells.attrs = some a → a.ndof = 1) :
    varChunks host e v' cv (again v cv w c) = varChunks host e v' cv w := by
  have hcp := cellPos hd
  cases v' with
  | v2 =>
    show varChunksV2 host e cv _ = varChunksV2 host e cv _
    unfold varChunksV2
    rw [show (again v cv w c).nno = w.nno from rfl, show (again v cv w c).ncv = w.ncv from rfl,
      nodes_again (scalarV2 host e cv cNoD1 w.nno) (by
        intro p hp hs
        unfold scalarV2
        rw [whenScalar_mem hs, whenScalar_mem (by
          rw [show (keep v cv p).2 = stored v cv p.2 from rfl, scalar_stored, hs])]
        rw [show (keep v cv p).2 = stored v cv p.2 from rfl, doubles_stored]
        rfl) (by
        intro p hp hs
        exact whenScalar_false hs (GoodArr.ne_nil (hd.nodes p hp))),
      node_vectors_again host e hnv, node_vectors host e _ hnv,
      cells_again hd Scalar (scalarV2 host e cv cCvD1 w.ncv) (.inl rfl)
        (fun p h1 h2 => whenScalar_false h2 h1) (by
        intro p hp hs
        unfold scalarV2
        rw [whenScalar_mem hs, whenScalar_mem (by
          rw [show (keep v cv p).2 = stored v cv p.2 from rfl, scalar_stored, hs])]
        rw [show (keep v cv p).2 = stored v cv p.2 from rfl, doubles_stored]
        rfl),
      cells_again hd (fun a => decide (a.shape.length = 2)) (vectorV2 host e cv cCvD3 w.ncv) (.inr (.inl rfl))
        (fun p _ h2 => by unfold vectorV2; rw [if_neg (by simpa using h2)]) (by
        intro p hp hs
        unfold vectorV2
        rw [show (keep v cv p).2 = stored v cv p.2 from rfl, doubles_stored, stored_shape]
        rfl),
      cells_again hd (fun a => decide (a.shape.length = 3)) (tensorV2 host e cv w.ncv) (.inr (.inr rfl))
        (fun p _ h2 => by unfold tensorV2; rw [if_neg (by simpa using h2)]) (by
        intro p hp hs
        unfold tensorV2
        rw [show (keep v cv p).2 = stored v cv p.2 from rfl, doubles_stored, stored_shape]
        rfl)]
  | v3 =>
    have sc : ∀ (p : String × NpArr), p.2.shape.length = 1 → Ready .v3 p.2 → Scalar p.2 = true →
        (v = .v2 → ∃ l, p.2.data = .f64 l) → ∀ (idF idI : Int) (n : Nat) (idata : List Int),
        scalarV3 host e idF idI n idata (keep v cv p) = scalarV3 host e idF idI n idata p := by
      intro p hl hr hs hf idF idI n idata
      cases v with
      | v3 => exact scalarV3_again host e hl hr hs
      | v2 =>
        obtain ⟨l, hl'⟩ := hf rfl
        have : keep .v2 cv p = p := by
          obtain ⟨name, ⟨shape, data⟩⟩ := p
          simp only at hl'
          subst hl'
          rfl
        rw [this]
    show varChunksV3 host e cv _ = varChunksV3 host e cv _
    unfold varChunksV3
    rw [show (again v cv w c).nno = w.nno from rfl, show (again v cv w c).ncv = w.ncv from rfl,
      nodes_again (scalarV3 host e cNoD1 cNoII1 w.nno [w.nno]) (by
        intro p hp hs
        refine sc p ?_ (hrn p hp hs) hs (fun hv => (hvv rfl hv).1 p hp) _ _ _ _
        rw [(scalar_shape (hd.nodes p hp) (hd.someNode (List.ne_nil_of_mem hp)) hs).1]; rfl) (by
        intro p hp hs
        exact whenScalar_false hs (GoodArr.ne_nil (hd.nodes p hp))),
      node_vectors_again host e hnv, node_vectors host e _ hnv]
    congr 1
    by_cases hdn : w.cells.data = []
    · have : (again v cv w c).cells.data = [] := by
        show List.map _ (scalars w.cells.data ++ vectors w.cells.data ++ tensors w.cells.data) = []
        rw [hdn]; rfl
      unfold cellChunksV3
      rw [this, hdn]
      cases w.cells.attrs <;> simp [again, exported]
    · obtain ⟨_, hdof, _⟩ := hd.someCell hdn
      have ha : (again v cv w c).cells.attrs = some (attrsDof vars0.attrs (WState.dof v w)) := by
        show some (if w.cells.data = [] then _ else _) = _
        rw [if_neg hdn]
      have hnd : (attrsDof vars0.attrs (WState.dof v w)).ndof = WState.dof v w := by
        unfold attrsDof
        split
        · rfl
        · show (1 : Int) = _
          omega
      unfold cellChunksV3
      rw [ha]
      cases hat' : w.cells.attrs with
      | none => exact absurd hat' (hat rfl hdn)
      | some a =>
        have hda : WState.dof v w = a.ndof := by
          cases v with
          | v3 => simp [WState.dof, CellSet.ndof, hat']
          | v2 => rw [(hvv rfl rfl).2.2 a hat']; rfl
        simp only
        rw [hnd, hda]
        rw [cells_again hd Scalar (scalarV3 host e cCvD1 cCvII1 (a.ndof * w.ncv).toNat [w.ncv, a.ndof]) (.inl rfl)
          (fun p h1 h2 => whenScalar_false h2 h1) (by
          intro p hp hs
          refine sc p ?_ (hrc p hp hs) hs (fun hv => (hvv rfl hv).2.1 p hp) _ _ _ _
          rw [(scalar_shape (hd.cells p hp) (hcp hdn) hs).1]; rfl),
        cells_again hd (fun a => decide (a.shape.length = 2)) (vectorV3 host e cv (a.ndof * w.ncv).toNat [w.ncv, a.ndof]) (.inr (.inl rfl))
          (fun p _ h2 => by unfold vectorV3; rw [if_neg (by simpa using h2)]) (by
          intro p hp hs
          unfold vectorV3
          rw [show (keep v cv p).2 = stored v cv p.2 from rfl, doubles_stored, stored_shape]
          rfl),
        cells_again hd (fun a => decide (a.shape.length = 3)) (tensorV3 host e cv (a.ndof * w.ncv).toNat [w.ncv, a.ndof]) (.inr (.inr rfl))
          (fun p _ h2 => by unfold tensorV3; rw [if_neg (by simpa using h2)]) (by
          intro p hp hs
          unfold tensorV3
          rw [show (keep v cv p).2 = stored v cv p.2 from rfl, doubles_stored, stored_shape]
          rfl)]

end

end Cfd.Ic3
