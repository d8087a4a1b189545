import Verif.Lemmas.Ic3Write

/-! Reading the sections of an IC3 file. -/

namespace Cfd.Ic3
open Spec Spec.Ic3

theorem sectionLoop_eq {σ : Type} (file : Bytes) (o : Order) (ids : List Int)
    (step : σ → Header → Nat → Py (σ × Nat × Bool)) (p : Nat) (s : σ) :
    sectionLoop file o ids step p s = (match scan file o ids p with
      | .error e => .error e
      | .ok (.absent _) => .ok s
      | .ok (.found h q) => match step s h q with
          | .error e => .error e
          | .ok (s', k, true) => sectionLoop file o ids step (q + k) s'
          | .ok (s', _, false) => .ok s') := by
  rw [sectionLoop]
  split
  · rename_i h; rw [h]
  · rename_i h; rw [h]
  · rename_i hh pp h
    simp only [h]
    rcases step s hh pp with er | ⟨s', k, b⟩
    · rfl
    · cases b <;> rfl

theorem sectionLoop_congr {σ : Type} {file : Bytes} {o : Order} {ids : List Int}
    {step : σ → Header → Nat → Py (σ × Nat × Bool)} {p q : Nat} (s : σ)
    (h : scan file o ids p = scan file o ids q) :
    sectionLoop file o ids step p s = sectionLoop file o ids step q s := by
  rw [sectionLoop_eq, h, ← sectionLoop_eq]

theorem sectionLoop_found {σ : Type} {file : Bytes} {o : Order} {ids : List Int}
    {step : σ → Header → Nat → Py (σ × Nat × Bool)} {p q : Nat} {s s' : σ} {h : Header} {k : Nat}
    (hs : scan file o ids p = .ok (.found h q)) (hst : step s h q = .ok (s', k, true)) :
    sectionLoop file o ids step p s = sectionLoop file o ids step (q + k) s' := by
  rw [sectionLoop]
  split
  · rename_i h1; rw [hs] at h1; simp at h1
  · rename_i h1; rw [hs] at h1; simp at h1
  · rename_i h1; rw [hs] at h1
    simp only [Except.ok.injEq, Scan.found.injEq] at h1
    obtain ⟨rfl, rfl⟩ := h1
    rw [hst]

theorem sectionLoop_last {σ : Type} {file : Bytes} {o : Order} {ids : List Int}
    {step : σ → Header → Nat → Py (σ × Nat × Bool)} {p q : Nat} {s s' : σ} {h : Header} {k : Nat}
    (hs : scan file o ids p = .ok (.found h q)) (hst : step s h q = .ok (s', k, false)) :
    sectionLoop file o ids step p s = .ok s' := by
  rw [sectionLoop]
  split
  · rename_i h1; rw [hs] at h1; simp at h1
  · rename_i h1; rw [hs] at h1; simp at h1
  · rename_i h1; rw [hs] at h1
    simp only [Except.ok.injEq, Scan.found.injEq] at h1
    obtain ⟨rfl, rfl⟩ := h1
    rw [hst]

theorem sectionLoop_absent {σ : Type} {file : Bytes} {o : Order} {ids : List Int}
    {step : σ → Header → Nat → Py (σ × Nat × Bool)} {p q : Nat} {s : σ}
    (hs : scan file o ids p = .ok (.absent q)) : sectionLoop file o ids step p s = .ok s := by
  rw [sectionLoop]
  split
  · rename_i h1; rw [hs] at h1; simp at h1
  · rfl
  · rename_i h1; rw [hs] at h1; simp at h1

theorem sectionLoop_error {σ : Type} {file : Bytes} {o : Order} {ids : List Int}
    {step : σ → Header → Nat → Py (σ × Nat × Bool)} {p : Nat} {s : σ} {er : PyErr}
    (hs : scan file o ids p = .error er) : sectionLoop file o ids step p s = .error er := by
  rw [sectionLoop]
  split
  · rename_i h1; rw [hs] at h1; simp at h1; rw [h1]
  · rename_i h1; rw [hs] at h1; simp at h1
  · rename_i h1; rw [hs] at h1; simp at h1

/-! ## Truncated files -/

theorem scan_short {file : Bytes} {o : Order} {ids : List Int} {p : Nat} (h : (file.drop p).length < 256) :
    scan file o ids p = .error .type := by
  have hr : readAt file p hsize = none := by
    unfold readAt
    simp only
    rw [if_neg]
    simp only [List.length_take, hsize]
    omega
  rw [scan]
  split
  · rfl
  · rename_i h1; rw [hr] at h1; simp at h1

theorem scan_drop_hdr {file : Bytes} {o : Order} {ids : List Int} {p : Nat} {h : Header} (g : GoodHeader h)
    {c : Bytes} (hd : file.drop p = hdrBytes o h ++ c) :
    scan file o ids p =
      if endName h.name then .ok (.absent (p + 256))
      else if h.id ∈ ids then .ok (.found h (p + 256))
      else if h.id = cEof then .ok (.absent (p + 256))
      else scan file o ids (nextPos p h.skip) := by
  have hp : p ≤ file.length := by
    by_contra hc
    have := congrArg List.length hd
    simp only [List.length_drop, List.length_append, length_hdr g] at this
    omega
  have e : file = file.take p ++ (hdrBytes o h ++ c) := by rw [← hd, List.take_append_drop]
  have := scan_hdr o ids (file.take p) c h g
  rw [← e, List.length_take, Nat.min_eq_left hp] at this
  exact this

/-- The loop over the parameters fails on a file cut before the end of the end-of-file section. -/
theorem sectionLoop_truncated {o : Order} {file : Bytes} (secs : List Sec)
    (hw : ∀ s ∈ secs, SecWF s ∧ Passes s) (p : Nat) (st : Dict String SimVal) (c : Bytes) (hc : c ≠ [])
    (h : file.drop p ++ c = secsBytes o secs ++ eofSec.bytes o) :
    ∃ er, sectionLoop file o [cI0, cD0] infoStep p st = .error er := by
  induction secs generalizing p st with
  | nil =>
    refine ⟨.type, sectionLoop_error (scan_short ?_)⟩
    have h1 := congrArg List.length h
    have h2 := length_sec (o := o) (eof_ok o .little).2
    have h3 : 0 < c.length := List.length_pos_iff.2 hc
    simp only [List.length_append, secsBytes, List.flatMap_nil, List.length_nil, h2] at h1
    have : eofSec.payload.length = 0 := rfl
    omega
  | cons s t ih =>
    by_cases hl : (file.drop p).length < 256
    · exact ⟨.type, sectionLoop_error (scan_short hl)⟩
    · obtain ⟨w, hpass⟩ := hw s (by simp)
      have ht := fun x hx => hw x (List.mem_cons_of_mem _ hx)
      have e1 : file.drop p ++ c = hdrBytes o s.h ++ (s.payload ++ (secsBytes o t ++ eofSec.bytes o)) := by
        rw [h]; simp [secsBytes, Sec.bytes]
      -- the header is there
      have e2 : ∃ r, file.drop p = hdrBytes o s.h ++ r ∧ r ++ c = s.payload ++ (secsBytes o t ++ eofSec.bytes o) := by
        rcases List.append_eq_append_iff.1 e1 with ⟨m, h3, h4⟩ | ⟨m, h3, h4⟩
        · have hm : m = [] := by
            have := congrArg List.length h3
            simp only [List.length_append, length_hdr w.header] at this
            exact List.length_eq_zero_iff.1 (by omega)
          subst hm
          exact ⟨[], by simpa using h3.symm, by simpa using h4⟩
        · exact ⟨m, h3, h4.symm⟩
      obtain ⟨r, e3, e4⟩ := e2
      have sc := scan_drop_hdr (ids := [cI0, cD0]) w.header e3
      rw [w.name, if_neg (by simp)] at sc
      have e5 : file.drop (p + 256) = r := by
        rw [← List.drop_drop, e3, List.drop_append_of_le_length (by rw [length_hdr w.header]),
          List.drop_of_length_le (by rw [length_hdr w.header]), List.nil_append]
      by_cases hid : s.h.id ∈ [cI0, cD0]
      · rw [if_pos hid] at sc
        have hpl : s.payload = [] := hpass.2 (by simpa using hid)
        have hst : ∃ st', infoStep st s.h (p + 256) = .ok (st', 0, true) := by
          unfold infoStep
          split <;> exact ⟨_, rfl⟩
        obtain ⟨st', hst⟩ := hst
        rw [sectionLoop_found sc hst]
        refine ih ht (p + 256 + 0) st' ?_
        rw [Nat.add_zero, e5, e4, hpl, List.nil_append]
      · rw [if_neg hid, if_neg hpass.1.2, nextPos_sec w] at sc
        rw [sectionLoop_congr st sc]
        have e6 : file.drop (p + (256 + s.payload.length)) = r.drop s.payload.length := by
          rw [← Nat.add_assoc, ← List.drop_drop, e5]
        by_cases hle : s.payload.length ≤ r.length
        · refine ih ht _ st ?_
          rw [e6]
          have := congrArg (List.drop s.payload.length) e4
          rw [List.drop_append_of_le_length hle, List.drop_append_of_le_length (Nat.le_refl _),
            List.drop_of_length_le (Nat.le_refl _), List.nil_append] at this
          exact this
        · refine ⟨.type, sectionLoop_error (scan_short ?_)⟩
          rw [e6, List.length_drop]
          omega

end Cfd.Ic3
