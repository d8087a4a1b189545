import Verif.Lemmas.Ic3Read

/-! Loops over blocks of sections, and reading of the payloads. -/

namespace Cfd.Ic3
open Spec Spec.Ic3

/-- At position `p` of the file comes `rest`, up to the end. -/
def At (file : Bytes) (p : Nat) (rest : Bytes) : Prop := ∃ a, file = a ++ rest ∧ p = a.length

theorem At.step {file b c : Bytes} {p : Nat} (h : At file p (b ++ c)) : At file (p + b.length) c := by
  obtain ⟨a, rfl, rfl⟩ := h
  exact ⟨a ++ b, by simp, by simp⟩

theorem At.step' {file b c : Bytes} {p n : Nat} (h : At file p (b ++ c)) (hn : n = b.length) :
    At file (p + n) c := hn ▸ h.step

theorem At.readAt {file b c : Bytes} {p n : Nat} (h : At file p (b ++ c)) (hn : n = b.length) :
    readAt file p n = some b := by
  obtain ⟨a, rfl, rfl⟩ := h
  exact readAt_append' rfl hn

theorem At.moved {file b c : Bytes} {p n : Nat} (h : At file p (b ++ c)) (hn : n = b.length) :
    moved file p n = n := by
  obtain ⟨a, rfl, rfl⟩ := h
  subst hn
  unfold Cfd.Ic3.moved afterRead
  rw [if_pos (by simp only [List.length_append]; omega)]
  omega

theorem At.readI32 {file c : Bytes} {o : Order} {p : Nat} {l : List Int} {n : Int}
    (h : At file p (intsBytes o 4 l ++ c)) (hf : ∀ x ∈ l, FitsInt 4 x) (hn : n = l.length) :
    readI32 file o p n = .ok (some l) := by
  subst hn
  unfold Ic3.readI32 formatCount
  rw [if_neg (by omega), Except_bind_ok, Int.toNat_natCast, h.readAt (by simp)]
  have := unpackInts_intsBytes o 4 (by decide) l hf []
  rw [List.append_nil] at this
  simp [this]

theorem At.readI64 {file c : Bytes} {o : Order} {p : Nat} {l : List Int} {n : Int}
    (h : At file p (intsBytes o 8 l ++ c)) (hf : ∀ x ∈ l, FitsInt 8 x) (hn : n = l.length) :
    readI64 file o p n = .ok (some l) := by
  subst hn
  unfold Ic3.readI64 formatCount
  rw [if_neg (by omega), Except_bind_ok, Int.toNat_natCast, h.readAt (by simp)]
  have := unpackInts_intsBytes o 8 (by decide) l hf []
  rw [List.append_nil] at this
  simp [this]

theorem At.readF64 {file c : Bytes} {o : Order} {p : Nat} {l : List F64} {n : Int}
    (h : At file p (f64sBytes o l ++ c)) (hn : n = l.length) :
    readF64 file o p n = .ok (some l) := by
  subst hn
  unfold Ic3.readF64 formatCount
  rw [if_neg (by omega), Except_bind_ok, Int.toNat_natCast, h.readAt (by simp)]
  have := unpackF64s_f64sBytes o l []
  rw [List.append_nil] at this
  simp [this]

/-- Sections that the loops jump over or find. -/
def Body (l : List Sec) : Prop := ∀ s ∈ l, SecWF s ∧ Passes s

theorem Body.append {a b : List Sec} : Body (a ++ b) ↔ Body a ∧ Body b := by
  simp only [Body, List.forall_mem_append]

theorem Body.cons {s : Sec} {b : List Sec} : Body (s :: b) ↔ (SecWF s ∧ Passes s) ∧ Body b := by
  simp [Body]

/-- No section of the list has one of the identifiers. -/
def Others (ids : List Int) (l : List Sec) : Prop := ∀ s ∈ l, s.h.id ∉ ids

theorem Others.append {ids : List Int} {a b : List Sec} : Others ids (a ++ b) ↔ Others ids a ∧ Others ids b := by
  simp [Others, or_imp, forall_and]

theorem Others.cons {ids : List Int} {s : Sec} {b : List Sec} :
    Others ids (s :: b) ↔ s.h.id ∉ ids ∧ Others ids b := by
  simp [Others]

theorem Others.nil {ids : List Int} : Others ids [] := by simp [Others]

theorem Others.map {α : Type} {ids : List Int} {l : List α} {f : α → Sec} (h : ∀ x ∈ l, (f x).h.id ∉ ids) :
    Others ids (l.map f) := by
  intro s hs
  obtain ⟨x, hx, rfl⟩ := List.mem_map.1 hs
  exact h x hx

theorem At.scan_skip {file c : Bytes} {o : Order} {ids : List Int} {p : Nat} {l : List Sec} (hb : Body l)
    (hn : Others ids l) (h : At file p (secsBytes o l ++ c)) :
    scan file o ids p = scan file o ids (p + (secsBytes o l).length) := by
  obtain ⟨a, rfl, rfl⟩ := h
  exact Ic3.scan_skip o ids a c l (fun s hs => (hb s hs).1) (fun s hs => ⟨hn s hs, (hb s hs).2.1.2⟩)

theorem At.scan_found {file c : Bytes} {o : Order} {ids : List Int} {p : Nat} {l : List Sec} {s : Sec}
    (hb : Body l) (hn : Others ids l) (w : SecWF s) (hid : s.h.id ∈ ids)
    (h : At file p (secsBytes o l ++ (s.bytes o ++ c))) :
    ∃ q, scan file o ids p = .ok (.found s.h q) ∧ At file q (s.payload ++ c) := by
  obtain ⟨a, rfl, rfl⟩ := h
  refine ⟨_, Ic3.scan_found o ids a c l s (fun s hs => (hb s hs).1)
    (fun s hs => ⟨hn s hs, (hb s hs).2.1.2⟩) w hid, a ++ secsBytes o l ++ hdrBytes o s.h, ?_, ?_⟩
  · simp [Sec.bytes]
  · simp [length_hdr w.header]; omega

theorem At.scan_absent {file c : Bytes} {o : Order} {ids : List Int} {p : Nat} {l : List Sec}
    (hb : Body l) (hn : Others ids l) (hids : cEof ∉ ids)
    (h : At file p (secsBytes o l ++ (eofSec.bytes o ++ c))) :
    ∃ q, scan file o ids p = .ok (.absent q) := by
  obtain ⟨a, rfl, rfl⟩ := h
  exact ⟨_, Ic3.scan_absent o ids a c l eofSec (fun s hs => (hb s hs).1)
    (fun s hs => ⟨hn s hs, (hb s hs).2.1.2⟩) (eof_ok o .little).2 rfl hids⟩

/-- A whole file. -/
structure IsFile (o : Order) (file : Bytes) (secs : List Sec) : Prop where
  at8 : At file 8 (secsBytes o secs ++ (eofSec.bytes o ++ []))
  body : Body secs

theorem IsFile.scanReq {o : Order} {file : Bytes} {l r : List Sec} {s : Sec} {ids : List Int}
    (h : IsFile o file (l ++ s :: r)) (hn : Others ids l) (hid : s.h.id ∈ ids) :
    ∃ q, scanReq file o ids = .ok (s.h, q) ∧
      At file q (s.payload ++ (secsBytes o r ++ (eofSec.bytes o ++ []))) := by
  have hb := Body.append.1 h.body
  have h8 := h.at8
  have e : secsBytes o (l ++ s :: r) ++ (eofSec.bytes o ++ []) =
      secsBytes o l ++ (s.bytes o ++ (secsBytes o r ++ (eofSec.bytes o ++ []))) := by
    simp [secsBytes]
  rw [e] at h8
  obtain ⟨q, h1, h2⟩ := h8.scan_found hb.1 hn (Body.cons.1 hb.2).1.1 hid
  exact ⟨q, by unfold Ic3.scanReq; rw [h1]; rfl, h2⟩

section
variable {σ : Type} {file : Bytes} {o : Order} {ids : List Int}
  {step : σ → Header → Nat → Py (σ × Nat × Bool)}

/-- The loop jumps over a block of other sections. -/
theorem loop_skip {l : List Sec} {c : Bytes} {p : Nat} (st : σ) (hb : Body l) (hn : Others ids l)
    (h : At file p (secsBytes o l ++ c)) :
    ∃ q, At file q c ∧ sectionLoop file o ids step p st = sectionLoop file o ids step q st :=
  ⟨_, h.step, sectionLoop_congr st (h.scan_skip hb hn)⟩

/-- The loop handles each section of a block. -/
theorem loop_map {α : Type} {l : List α} {sc : α → Sec} (f : σ → α → σ) (P : σ → Prop)
    (hid : ∀ x ∈ l, (sc x).h.id ∈ ids)
    (hstep : ∀ st x q c, x ∈ l → P st → At file q ((sc x).payload ++ c) →
      step st (sc x).h q = .ok (f st x, (sc x).payload.length, true) ∧ P (f st x))
    {c : Bytes} {p : Nat} (st : σ) (hP : P st) (hb : Body (l.map sc))
    (h : At file p (secsBytes o (l.map sc) ++ c)) :
    ∃ q, At file q c ∧ P (l.foldl f st) ∧
      sectionLoop file o ids step p st = sectionLoop file o ids step q (l.foldl f st) := by
  induction l generalizing p st with
  | nil => exact ⟨p, by simpa [secsBytes] using h, hP, rfl⟩
  | cons x t ih =>
    simp only [List.map_cons] at hb h
    obtain ⟨⟨w, _⟩, hb2⟩ := Body.cons.1 hb
    have e : secsBytes o (sc x :: t.map sc) ++ c = secsBytes o [] ++ ((sc x).bytes o ++ (secsBytes o (t.map sc) ++ c)) := by
      simp [secsBytes]
    rw [e] at h
    obtain ⟨q, h1, h2⟩ := h.scan_found (ids := ids) (by simp [Body]) (by simp [Others]) w (hid x (by simp))
    obtain ⟨h3, h4⟩ := hstep st x q _ (by simp) hP h2
    rw [sectionLoop_found h1 h3]
    exact ih (fun y hy => hid y (by simp [hy])) (fun st y q c hy => hstep st y q c (by simp [hy])) _ h4 hb2 h2.step

theorem loop_end (st : σ) {p : Nat} (hids : cEof ∉ ids) (h : At file p (eofSec.bytes o ++ [])) :
    sectionLoop file o ids step p st = .ok st := by
  have e : eofSec.bytes o ++ [] = secsBytes o [] ++ (eofSec.bytes o ++ []) := by simp [secsBytes]
  rw [e] at h
  obtain ⟨q, hq⟩ := h.scan_absent (ids := ids) (by simp [Body]) (by simp [Others]) hids
  exact sectionLoop_absent hq

end

end Cfd.Ic3
