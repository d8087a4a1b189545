import Verif.Lemmas.Ic3ForeignData

/-! The mesh and the data that are read are those that the sections tell. -/

namespace Cfd.Ic3
open Spec Spec.Ic3 ElemConn

theorem first_mem {code : Int} {l : List Sec} {s : Sec} (h : first code l = some s) : s ∈ l ∧ s.h.id = code := by
  unfold first at h
  exact ⟨List.mem_of_find?_eq_some h, by simpa using List.find?_some h⟩

theorem sized_first {ver : Int} {l : List Sec} (hs : Sections ver l) {code : Int} {s : Sec} {n : Int}
    (h : first code l = some s) (hr : ∀ h : Header, h.id = code → room ver (countsOf l) h = some n) :
    (s.payload.length : Int) = n :=
  hs.sizes s (first_mem h).1 n (hr _ (first_mem h).2)

/-- What is read of the mesh. -/
theorem connOf_inv {integ : Bool} {o : Order} {ver : Int} {l : List Sec} {m : RMesh} (hs : Sections ver l)
    (h : connOf integ o l = .ok m) :
    (first 10 l).isSome = true ∧ m.no = (countsOf l).no ∧ m.fa = (countsOf l).fa ∧ m.cv = (countsOf l).cv ∧
    m.noofa = (countsOf l).noofa ∧
    (∃ s, first 21 l = some s ∧ noofaOf o s (countsOf l).fa (countsOf l).noofa = .ok m.csr) ∧
    (∃ s, first 22 l = some s ∧ cvofaOf o s (countsOf l).fa (countsOf l).cv = .ok m.cvofa) ∧
    zonesRead m.csr (after 22 l) = .ok m.bocos ∧
    (∃ s, first 41 l = some s ∧ partOf o s (countsOf l).cv = .ok (m.npart, m.icvpart)) ∧
    (∃ s, first 31 l = some s ∧ coordsOf o s (countsOf l).no = .ok m.coords) := by
  unfold connOf at h
  obtain ⟨s, hq, h⟩ := bind_eq_ok.1 h
  have e := req_ok hq
  have e : first 10 l = some s := e
  have hc : countsOf l = ⟨s.h.int 0, s.h.int 1, s.h.int 2, s.h.int 3⟩ := by
    unfold countsOf; rw [e]
  have fin : ∀ {m : RMesh}, (do
      let csr ← req (first cNoofa l) >>= fun s' => noofaOf o s' (s.h.int 1) (s.h.int 3)
      let cvofa ← req (first cCvofa l) >>= fun s' => cvofaOf o s' (s.h.int 1) (s.h.int 2)
      let bocos ← zonesRead csr (after cCvofa l)
      let (npart, icv) ← req (first cCvPart l) >>= fun s' => partOf o s' (s.h.int 2)
      let coords ← req (first cXno l) >>= fun s' => coordsOf o s' (s.h.int 0)
      return (⟨s.h.int 0, s.h.int 1, s.h.int 2, s.h.int 3, csr, cvofa, bocos, npart, icv, coords⟩ : RMesh)) = .ok m →
      m.no = (countsOf l).no ∧ m.fa = (countsOf l).fa ∧ m.cv = (countsOf l).cv ∧ m.noofa = (countsOf l).noofa ∧
      (∃ s, first 21 l = some s ∧ noofaOf o s (countsOf l).fa (countsOf l).noofa = .ok m.csr) ∧
      (∃ s, first 22 l = some s ∧ cvofaOf o s (countsOf l).fa (countsOf l).cv = .ok m.cvofa) ∧
      zonesRead m.csr (after 22 l) = .ok m.bocos ∧
      (∃ s, first 41 l = some s ∧ partOf o s (countsOf l).cv = .ok (m.npart, m.icvpart)) ∧
      (∃ s, first 31 l = some s ∧ coordsOf o s (countsOf l).no = .ok m.coords) := by
    intro m hm
    obtain ⟨csr, h1, hm⟩ := bind_eq_ok.1 hm
    obtain ⟨s1, q1, h1⟩ := bind_eq_ok.1 h1
    obtain ⟨cvofa, h2, hm⟩ := bind_eq_ok.1 hm
    obtain ⟨s2, q2, h2⟩ := bind_eq_ok.1 h2
    obtain ⟨bocos, h3, hm⟩ := bind_eq_ok.1 hm
    obtain ⟨⟨np, icv⟩, h4, hm⟩ := bind_eq_ok.1 hm
    obtain ⟨s4, q4, h4⟩ := bind_eq_ok.1 h4
    obtain ⟨co, h5, hm⟩ := bind_eq_ok.1 hm
    obtain ⟨s5, q5, h5⟩ := bind_eq_ok.1 h5
    simp only [Except_pure, Except.ok.injEq] at hm
    subst hm
    rw [hc]
    exact ⟨rfl, rfl, rfl, rfl, ⟨s1, req_ok q1, h1⟩, ⟨s2, req_ok q2, h2⟩, h3, ⟨s4, req_ok q4, h4⟩, ⟨s5, req_ok q5, h5⟩⟩
  refine ⟨by rw [e]; rfl, ?_⟩
  cases integ
  · simp only [Bool.false_eq_true, if_false] at h
    exact fin h
  · simp only [if_true] at h
    obtain ⟨_, _, h⟩ := bind_eq_ok.1 h
    exact fin h

theorem get?_append {V : Type} (d d' : Dict String V) (k : String) :
    Dict.get? (d ++ d') k = (d.get? k).or (d'.get? k) := by
  induction d with
  | nil => rfl
  | cons x t ih =>
    simp only [List.cons_append, Dict.get?]
    split
    · rfl
    · exact ih

theorem readOf_tells {integ : Bool} {o : Order} {ver : Int} {l : List Sec} {f : FullMesh} (hs : Sections ver l)
    (h : readOf integ o ver l = .ok f) : ∃ faces points, Tells o ver l faces points f ∧
      (∀ a ∈ faces, 1 ≤ a.1.length ∧ a.1.length ≤ 4) ∧
      (∀ a ∈ faces, a.2.1 < (countsOf l).cv ∧ a.2.2 < (countsOf l).cv) ∧
      (∃ a ∈ faces, a.2.1 = (countsOf l).cv - 1 ∨ a.2.2 = (countsOf l).cv - 1) := by
  unfold readOf at h
  obtain ⟨m, hm, h⟩ := bind_eq_ok.1 h
  obtain ⟨sim, hsim, h⟩ := bind_eq_ok.1 h
  obtain ⟨vars, hvars, h⟩ := bind_eq_ok.1 h
  obtain ⟨c10, n1, n2, n3, n4, ⟨s21, f21, hno⟩, ⟨s22, f22, hcv⟩, hzo, ⟨s41, f41, hpa⟩, ⟨s31, f31, hco⟩⟩ := connOf_inv hs hm
  have hc := hs.counts
  obtain ⟨a1, a2, nno, a3, a4, a5, a6, a7⟩ := noofaOf_inv hno ⟨hc.2.1, hc.2.2.2⟩
    (sized_first hs f21 (by intro h e; unfold room; rw [e]; rfl))
  obtain ⟨b1, b2, b3, b4, b5, b6, b7⟩ := cvofaOf_inv hcv (sized_first hs f22 (by intro h e; unfold room; rw [e]; rfl))
  obtain ⟨p1, q, p2, p3, p4, p5⟩ := partOf_inv hpa hc.2.2.1 (sized_first hs f41 (by intro h e; unfold room; rw [e]; rfl))
  obtain ⟨x1, x2, x3, x4⟩ := coordsOf_inv hco hc.1 (sized_first hs f31 (by intro h e; unfold room; rw [e]; rfl))
  obtain ⟨z1, z2⟩ := zones_tell hzo
  rw [List.nil_append] at z1
  obtain ⟨i1, i2⟩ := info_tells hsim
  rw [n1, n2, n3] at hvars
  obtain ⟨v1, v2, v3⟩ := varsOf_tells hs.sizes hvars
  unfold exportMesh at h
  obtain ⟨m1, h1, h⟩ := bind_eq_ok.1 h
  obtain ⟨c, hcc, h⟩ := bind_eq_ok.1 h
  obtain ⟨m2, h2, h⟩ := bind_eq_ok.1 h
  simp only [Except_pure, Except.ok.injEq] at h
  obtain ⟨faces, F1, F2, F3, F4, F5, F6⟩ := import_faces a4 a5 (by rw [a3, b3]) hcc
  unfold Mesh.setCoordsNd at h1
  obtain ⟨_, _, h1⟩ := bind_eq_ok.1 h1
  simp only [Except_pure, Except.ok.injEq] at h1
  subst h1
  have h3 : m2 = { (Mesh.new m.cv.toNat m.no.toNat : Mesh F64) with
      coords := some (m.coords.map (·.1), m.coords.map (·.2.1), m.coords.map (·.2.2))
      faces := [("mixed", ⟨c, some (some m.cvofa)⟩)], nface := c.nelem } := by
    unfold Mesh.addFaces at h2
    rw [if_pos (by simp [Mesh.faceKinds])] at h2
    simp only [Except.ok.injEq] at h2
    rw [← h2]
    simp [Mesh.new, Dict.set, Mesh.totalFaces]
  subst h3
  subst h
  have hlen : faces.length = (countsOf l).fa.toNat := by rw [← b3, ← F6, List.length_map]
  have hmem : ∀ a ∈ faces, a.2 ∈ m.cvofa := fun a ha => by rw [← F6]; exact List.mem_map_of_mem ha
  refine ⟨faces, m.coords, ⟨?_, ?_, ?_, ⟨c10, by omega, ⟨s21, f21, a1, a2, by rw [F4, F5]; exact a6⟩, ⟨s22, f22, b1, b2, ?_⟩, ?_⟩,
    ⟨_, ?_, F1⟩, ⟨x3, s31, f31, x1, x2, x4⟩, ?_, ⟨m.npart, q, ?_, p3, ⟨s41, f41, p1, p4⟩, p5⟩, ?_, v1, v2, ?_, ?_⟩, F3, ?_, ?_⟩
  · rw [foldl_addBoco]; simp only [Mesh.new]; omega
  · rw [foldl_addBoco]; simp only [Mesh.new]; omega
  · rw [foldl_addBoco]; exact F2
  · rw [b6, ← F6, List.flatMap_map]
  · intro a ha
    refine ⟨fun n hn => a7 n ?_, b7 _ (hmem a ha)⟩
    rw [← F5]
    exact List.mem_flatMap.2 ⟨a, ha, hn⟩
  · rw [foldl_addBoco]
  · rw [foldl_addBoco]
  · rw [← p2]
  · intro name
    rw [foldl_addBoco, z1]
    simp only [Mesh.new]
    rw [foldl_zoneMarks, show Dict.get? ([] : Dict String Mark) name = none from rfl, Option.or_none]
    rfl
  · rw [v3]
  · intro key
    simp only
    rw [foldl_set_dict _ _ i1]
    have hcnt1 : ∀ p : Int → Bool, (m.cvofa.filter fun r => p r.2).length = (faces.filter fun a => p a.2.2).length := by
      intro p
      rw [← F6, List.filter_map, List.length_map]
      rfl
    have e : otherParams l faces = [("step", .int 0), ("dt", .int 0), ("time", .int 0), ("wgt", .wgts [])] ++ paramsOf m := by
      unfold otherParams paramsOf
      rw [n1, n2, n3, n4, z1, List.length_map, hcnt1 (fun x => decide (x = -1)), hcnt1 (fun x => decide (x < -1))]
      rfl
    rw [e, get?_append, ← Option.or_assoc, ← i2 key]
    cases sim.get? key <;> rfl
  · intro a ha
    have := b4 _ (hmem a ha)
    omega
  · obtain ⟨q, hq, hx⟩ := b5
    rw [← F6] at hq
    obtain ⟨a, ha, rfl⟩ := List.mem_map.1 hq
    exact ⟨a, ha, hx⟩

end Cfd.Ic3
