import Verif.Spec.Ic3Foreign
import Verif.Lemmas.Ic3Blocks

/-! Reading files made of sections in any order. -/

namespace Cfd.Ic3
open Spec Spec.Ic3

/-! ## Reading inside a payload -/

theorem At.readAt_local {file b c : Bytes} {p n : Nat} (h : At file p (b ++ c)) {k : Nat} (hn : k + n ≤ b.length) :
    Ic3.readAt file (p + k) n = Ic3.readAt b k n := by
  obtain ⟨a, rfl, rfl⟩ := h
  unfold Ic3.readAt
  have e : (List.drop (a.length + k) (a ++ (b ++ c))).take n = (b.drop k).take n := by
    rw [← List.drop_drop, List.drop_left, List.drop_append_of_le_length (by omega), List.take_append_of_le_length (by simp; omega)]
  rw [e]

theorem At.readI32_local {file b c : Bytes} {o : Order} {p k : Nat} {n : Int} (h : At file p (b ++ c))
    (hn : k + 4 * n.toNat ≤ b.length) : Ic3.readI32 file o (p + k) n = Ic3.readI32 b o k n := by
  unfold Ic3.readI32 formatCount
  split
  · rfl
  · simp only [Except_bind_ok, h.readAt_local hn]

theorem At.readI64_local {file b c : Bytes} {o : Order} {p k : Nat} {n : Int} (h : At file p (b ++ c))
    (hn : k + 8 * n.toNat ≤ b.length) : Ic3.readI64 file o (p + k) n = Ic3.readI64 b o k n := by
  unfold Ic3.readI64 formatCount
  split
  · rfl
  · simp only [Except_bind_ok, h.readAt_local hn]

theorem At.readF64_local {file b c : Bytes} {o : Order} {p k : Nat} {n : Int} (h : At file p (b ++ c))
    (hn : k + 8 * n.toNat ≤ b.length) : Ic3.readF64 file o (p + k) n = Ic3.readF64 b o k n := by
  unfold Ic3.readF64 formatCount
  split
  · rfl
  · simp only [Except_bind_ok, h.readAt_local hn]

/-! ## Finding sections -/

section
variable {file : Bytes} {o : Order}

/-- At position `p` come the sections `l`, the end and the rest. -/
def Holds (file : Bytes) (o : Order) (p : Nat) (l : List Sec) : Prop :=
  ∃ last t, IsEnd last ∧ At file p (secsBytes o l ++ (hdrBytes o last ++ t))

/-- Sections that do not stop a scan. -/
def Going (l : List Sec) : Prop := ∀ s ∈ l, SecWF s ∧ s.h.id ≠ cEof

theorem Holds.rest {p : Nat} {l : List Sec} {s : Sec} (h : Holds file o p (s :: l)) (w : SecWF s) :
    ∃ c, At file (p + 256) (s.payload ++ c) ∧ Holds file o (p + 256 + s.payload.length) l := by
  obtain ⟨last, t, he, h⟩ := h
  have e : secsBytes o (s :: l) ++ (hdrBytes o last ++ t) =
      hdrBytes o s.h ++ (s.payload ++ (secsBytes o l ++ (hdrBytes o last ++ t))) := by
    simp [secsBytes, Sec.bytes]
  rw [e] at h
  have h2 := h.step' (n := 256) (length_hdr w.header).symm
  exact ⟨_, h2, last, t, he, h2.step⟩

theorem Holds.scan_nil {p : Nat} {ids : List Int} (hids : cEof ∉ ids) (h : Holds file o p []) :
    ∃ q, scan file o ids p = .ok (.absent q) := by
  obtain ⟨last, t, he, a, rfl, rfl⟩ := h
  have := scan_hdr o ids a t last he.good
  rw [show secsBytes o [] = [] from rfl, List.nil_append, this]
  rcases he.code with hc | hc
  · have : last.id = cEof := hc
    rw [this, if_neg hids, if_pos rfl]
    split <;> exact ⟨_, rfl⟩
  · rw [if_pos hc]; exact ⟨_, rfl⟩

theorem Holds.scan_cons_found {p : Nat} {ids : List Int} {s : Sec} {l : List Sec} (w : SecWF s) (hid : s.h.id ∈ ids)
    (h : Holds file o p (s :: l)) : scan file o ids p = .ok (.found s.h (p + 256)) := by
  obtain ⟨last, t, _, h⟩ := h
  have e : secsBytes o (s :: l) ++ (hdrBytes o last ++ t) =
      secsBytes o [] ++ (s.bytes o ++ (secsBytes o l ++ (hdrBytes o last ++ t))) := by
    simp [secsBytes]
  rw [e] at h
  obtain ⟨a, rfl, rfl⟩ := h
  have := Ic3.scan_found o ids a (secsBytes o l ++ (hdrBytes o last ++ t)) [] s (by simp) (by simp) w hid
  simpa [secsBytes] using this

theorem Holds.scan_cons_other {p : Nat} {ids : List Int} {s : Sec} {l : List Sec} (w : SecWF s) (he : s.h.id ≠ cEof)
    (hid : s.h.id ∉ ids) (h : Holds file o p (s :: l)) :
    scan file o ids p = scan file o ids (p + 256 + s.payload.length) := by
  obtain ⟨last, t, _, h⟩ := h
  have e : secsBytes o (s :: l) ++ (hdrBytes o last ++ t) =
      secsBytes o [s] ++ (secsBytes o l ++ (hdrBytes o last ++ t)) := by
    simp [secsBytes]
  rw [e] at h
  obtain ⟨a, rfl, rfl⟩ := h
  have := Ic3.scan_skip o ids a (secsBytes o l ++ (hdrBytes o last ++ t)) [s] (by simp [w]) (by simp [hid, he])
  rw [this]
  congr 1
  simp [secsBytes, Sec.bytes, length_hdr w.header]; omega

/-- Scanning for one kind finds its first section, or nothing. -/
theorem Holds.scan_first {p : Nat} {code : Int} {l : List Sec} (hc : code ≠ cEof) (hl : Going l)
    (h : Holds file o p l) :
    (first code l = none ∧ ∃ q, scan file o [code] p = .ok (.absent q)) ∨
    ∃ s q c, first code l = some s ∧ s ∈ l ∧ s.h.id = code ∧ scan file o [code] p = .ok (.found s.h q) ∧
      At file q (s.payload ++ c) ∧ Holds file o (q + s.payload.length) (after code l) := by
  induction l generalizing p with
  | nil => exact .inl ⟨rfl, h.scan_nil (by simpa using fun e => hc e.symm)⟩
  | cons s t ih =>
    obtain ⟨w, he⟩ := hl s (by simp)
    obtain ⟨c, h1, h2⟩ := h.rest w
    by_cases hid : s.h.id = code
    · refine .inr ⟨s, _, c, by simp [first, hid], by simp, hid, h.scan_cons_found w (by simp [hid]), h1, ?_⟩
      simpa [after, hid] using h2
    · have hs := h.scan_cons_other (ids := [code]) w he (by simpa using hid)
      have hf : first code (s :: t) = first code t := by simp [first, hid]
      have ha : after code (s :: t) = after code t := by simp [after, hid]
      rw [hs, hf, ha]
      rcases ih (fun x hx => hl x (by simp [hx])) h2 with h3 | ⟨s', q, c', i1, i2, i3, i4, i5⟩
      · exact .inl h3
      · exact .inr ⟨s', q, c', i1, by simp [i2], i3, i4, i5⟩

/-- Finding a section that must be there. -/
theorem Holds.scanReq_first {code : Int} {l : List Sec} (hc : code ≠ cEof) (hl : Going l)
    (h : Holds file o 8 l) :
    (first code l = none ∧ scanReq file o [code] = .error .runtime) ∨
    ∃ s q c, first code l = some s ∧ s ∈ l ∧ s.h.id = code ∧ scanReq file o [code] = .ok (s.h, q) ∧
      At file q (s.payload ++ c) ∧ Holds file o (q + s.payload.length) (after code l) := by
  rcases h.scan_first hc hl with ⟨h1, q, h2⟩ | ⟨s, q, c, h1, h2, h3, h4, h5⟩
  · exact .inl ⟨h1, by unfold scanReq; rw [h2]; rfl⟩
  · exact .inr ⟨s, q, c, h1, h2, h3, by unfold scanReq; rw [h4]; rfl, h5⟩

end

/-! ## Loops -/

/-- A loop over sections: what is done to each, until one says to stop. -/
def runLoop {σ : Type} (g : σ → Sec → Py (σ × Nat × Bool)) : List Sec → σ → Py σ
  | [], st => .ok st
  | s :: t, st => match g st s with
      | .error e => .error e
      | .ok (st', _, true) => runLoop g t st'
      | .ok (st', _, false) => .ok st'

theorem sectionLoop_run {σ : Type} {file : Bytes} {o : Order} {ids : List Int}
    {step : σ → Header → Nat → Py (σ × Nat × Bool)} (g : σ → Sec → Py (σ × Nat × Bool)) {l : List Sec}
    (hids : cEof ∉ ids) (hl : Going l)
    (hstep : ∀ st s q c, s ∈ l → s.h.id ∈ ids → At file q (s.payload ++ c) → step st s.h q = g st s ∧
      ∀ st' k, g st s = .ok (st', k, true) → k = s.payload.length)
    {p : Nat} (st : σ) (h : Holds file o p l) :
    sectionLoop file o ids step p st = runLoop g (only ids l) st := by
  induction l generalizing p st with
  | nil =>
    obtain ⟨q, hq⟩ := h.scan_nil hids
    exact sectionLoop_absent hq
  | cons s t ih =>
    obtain ⟨w, he⟩ := hl s (by simp)
    obtain ⟨c, h1, h2⟩ := h.rest w
    have ih := fun {p : Nat} (st : σ) (h : Holds file o p t) => ih (fun x hx => hl x (by simp [hx]))
      (fun st x q c hx => hstep st x q c (by simp [hx])) st h
    by_cases hid : s.h.id ∈ ids
    · have hs := h.scan_cons_found w hid
      obtain ⟨g1, g2⟩ := hstep st s _ _ (by simp) hid h1
      have ho : only ids (s :: t) = s :: only ids t := by simp [only, hid]
      rw [ho]
      unfold runLoop
      cases hg : g st s with
      | error e =>
        simp only
        rw [sectionLoop_eq, hs]
        simp only [g1, hg]
      | ok r =>
        obtain ⟨st', k, b⟩ := r
        cases b with
        | true =>
          simp only
          rw [sectionLoop_found hs (g1.trans hg), g2 st' k hg]
          exact ih st' h2
        | false =>
          simp only
          exact sectionLoop_last hs (g1.trans hg)
    · have ho : only ids (s :: t) = only ids t := by simp [only, hid]
      rw [ho, sectionLoop_congr st (h.scan_cons_other w he hid)]
      exact ih st h2

end Cfd.Ic3
