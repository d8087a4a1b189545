import Verif.Spec.Ic3Brief
import Verif.Props.Ic3Round

/-!
# C68: `ic3brief` lists the sections of a written file
-/

namespace Cfd.Ic3
open Cfd.Spec Cfd.Spec.Ic3

theorem body_codes (o : Order) (v : Ver) (cv : Conv) (w : WState) :
    ∀ x ∈ bodySecs o v cv w, x.h.id ∈ allCodes := by
  have hi : ∀ a : NpArr, (if isI64 a then cNoII1 else cNoD1) ∈ allCodes := by
    intro a; split <;> decide
  have hj : ∀ a : NpArr, (if isI64 a then cCvII1 else cCvD1) ∈ allCodes := by
    intro a; split <;> decide
  intro x hx
  unfold bodySecs connSecs infoSecs varSecs at hx
  rcases List.mem_append.1 hx with hx | hx
  · rcases List.mem_append.1 hx with hx | hx
    · simp only [List.mem_append, List.mem_cons, List.not_mem_nil, or_false, List.mem_map] at hx
      rcases hx with (((rfl | hx) | rfl | rfl) | ⟨p, _, rfl⟩) | rfl | rfl | rfl
      · simp only [sec, mkHeader]; decide
      · cases v with
        | v2 =>
          simp only [checkSecs, List.mem_cons, List.not_mem_nil, or_false] at hx
          rcases hx with rfl | rfl | rfl <;> (simp only [sec, mkHeader]; decide)
        | v3 => simp [checkSecs] at hx
      all_goals (simp only [zoneSec, internalSec, sec, mkHeader]; decide)
    · simp only [List.mem_append, List.mem_cons, List.not_mem_nil, or_false, List.mem_map] at hx
      rcases hx with (rfl | rfl | rfl | rfl) | ⟨p, _, rfl⟩ <;> (simp only [sec, mkHeader]; decide)
  · cases v with
    | v2 =>
      simp only [varSecsV2, List.mem_append, List.mem_map] at hx
      rcases hx with (((⟨p, _, rfl⟩ | ⟨p, _, rfl⟩) | ⟨p, _, rfl⟩) | ⟨p, _, rfl⟩) | ⟨p, _, rfl⟩ <;>
        (simp only [sec, mkHeader]; decide)
    | v3 =>
      simp only [varSecsV3, List.mem_append, List.mem_map] at hx
      rcases hx with (((⟨p, _, rfl⟩ | ⟨p, _, rfl⟩) | ⟨p, _, rfl⟩) | ⟨p, _, rfl⟩) | ⟨p, _, rfl⟩
      · exact hi p.2
      · simp only [sec, mkHeader]; decide
      · exact hj p.2
      all_goals (simp only [sec, mkHeader]; decide)

theorem body_sections {v : Ver} {f : FullMesh} {m : Mesh F64} {w : WState} (o : Order) (cv : Conv)
    (h : setMesh f m = .ok w) :
    ((bodySecs o v cv w).map (·.h) ++ [eofSec.h]).map (fun h => (h.name, h.id)) = sections v f m := by
  obtain ⟨c, zf, _, _, _, rfl⟩ := setMesh_ok h
  have hw : wgtsOf (setSimstate f.params).wgt = weightsOf f := by
    unfold setSimstate weightsOf
    cases f.params.get? "wgt" with
    | none => rfl
    | some x => cases x <;> rfl
  unfold bodySecs connSecs infoSecs sections
  rw [hw]
  cases v with
  | v2 =>
    simp only [checkSecs, varSecs, varSecsV2, keptInt, List.map_append, List.map_map, List.map_cons, List.map_nil]
    simp [sec, mkHeader, zoneSec, internalSec, eofSec, Function.comp_def, cCounts, cI0, cD0, cFaCheck, cNoofa,
      cCvofa, cFaZone, cFaD1, cFaD3, cNoCheck, cXno, cNoD1, cNoD3,
      cNoII1, cCvCheck, cCvPart, cCvD1, cCvD3, cCvD33, cCvII1, cData, cEof]
  | v3 =>
    simp only [checkSecs, varSecs, varSecsV3, keptInt, List.map_append, List.map_map, List.map_cons, List.map_nil]
    simp [sec, mkHeader, zoneSec, internalSec, eofSec, Function.comp_def, cCounts, cI0, cD0, cFaCheck, cNoofa,
      cCvofa, cFaZone, cFaD1, cFaD3, cNoCheck, cXno, cNoD1, cNoD3,
      cNoII1, cCvCheck, cCvPart, cCvD1, cCvD3, cCvD33, cCvII1, cData, cEof]

/-- C68: `read_headers` (the command `ic3brief`) on any file that a writer has completed: it succeeds, finds the byte
order and the version, and lists the sections one by one in the order of the file, up to the end-of-file section. The
line of counts holds the numbers of nodes, faces and cells; the line of a mark its kind, its first and its last face. -/
theorem C68_brief (tbl : FaceTable) (so : List Int → List Int) (host : Order) (e : Endian) (v : Ver) (cv : Conv)
    (f : FullMesh) (b : Bytes) (m : Mesh F64) (hn : NamesFit f) (hc : completeMesh tbl so f.mesh = .ok m)
    (h : writeIc3 tbl so host e v cv f = (some b, .ok ())) :
    ∃ hs, readHeaders b = .ok (e.order host, v.num, hs) ∧ hs.map (fun h => (h.name, h.id)) = sections v f m ∧
      (hs.head?.map fun x => x.idata.take 3) = some [(m.nnode : Int), m.nface, m.ncell] ∧
      ∀ p ∈ m.bocos, p.2.type ≠ "internal" → ∃ x ∈ hs, ∃ k a z, x.name = p.1 ∧ x.id = cFaZone ∧
        type2zonekind.get? p.2.type = some k ∧ p.2.index = .range a z ∧ x.idata.take 3 = [k, a, z] := by
  have h' := h
  unfold writeIc3 at h'
  rw [hc, Except_bind_ok] at h'
  cases hw : setMesh f m with
  | error er => rw [hw] at h'; simp at h'
  | ok w =>
    rw [hw] at h'
    simp only [Prod.mk.injEq, Option.some.injEq] at h'
    have hr : runChunks (fileChunks host e v cv w) = (b, .ok ()) := Prod.ext h'.1 h'.2
    have hno := namesOK_of_fit hn hc hw
    obtain ⟨h1, h2⟩ := write_full hno hr
    have hv : FitsInt 4 v.num := by cases v <;> decide
    have := C27_read_headers (e.order host) v.num hv [] (bodySecs (e.order host) v cv w) eofSec
      (fun x hx => (h2 x hx).1) (eof_ok host e).2 (fun x hx => ⟨body_codes _ _ _ _ x hx, (h2 x hx).2.1.2⟩) rfl
    rw [List.append_nil, show (123581321 : Int) = magic from rfl, ← fileBytes, ← h1] at this
    refine ⟨_, this, body_sections _ _ hw, ?_, ?_⟩
    · obtain ⟨c, zf, _, _, _, rfl⟩ := setMesh_ok hw
      rfl
    · intro p hp ht
      have hwb : w.bocos = m.bocos.filter fun p => decide (p.2.type ≠ "internal") := by
        obtain ⟨c, zf, _, _, _, rfl⟩ := setMesh_ok hw
        rfl
      have hpw : p ∈ w.bocos := by
        rw [hwb]; exact List.mem_filter.2 ⟨hp, by simpa using ht⟩
      obtain ⟨_, _, ⟨k, hk⟩, hi, _⟩ := (written_of_ok hr).zones p hpw
      refine ⟨(zoneSec p).h, ?_, k, _, _, rfl, rfl, hk, hi, ?_⟩
      · refine List.mem_append.2 (.inl (List.mem_map.2 ⟨zoneSec p, ?_, rfl⟩))
        unfold bodySecs connSecs
        simp only [List.mem_append, List.mem_map]
        exact .inl (.inl (.inl (.inr ⟨p, hpw, rfl⟩)))
      · show List.take 3 ([(type2zonekind.get? p.2.type).getD 0, _, _] ++ _) = _
        rw [hk]
        rfl

-- the lines of the V3 file of two tetrahedra
example : (match writeIc3 cgnsElem2faces id .little .native .v3 noConv twoTetra with
    | (some b, .ok ()) => match readHeaders b with
      | .ok (o, v, hs) => some (o, v, hs.map fun h => (h.name, h.idata.take 3))
      | .error _ => none
    | _ => none) =
  some (.little, 3, [("NO_FA_CV_NOOFA_COUNTS", [5, 7, 2]), ("NOOFA_I_AND_V", [7, 21, 0]), ("CVOFA", [7, 2, 0]),
    ("b", [2, 3, 5]), ("a", [1, 0, 2]), ("internal-domain", [6, 6, 6]), ("CV_PART", [2, 2, 0]), ("X_NO", [5, 3, 0]),
    ("DATA", [0, 0, 0]), ("STEP", [3, 0, 0]), ("DT", [0, 0, 0]), ("TIME", [0, 0, 0]), ("X", [5, 0, 0]), ("P", [2, 1, 0]),
    ("I", [2, 1, 0]), ("U", [2, 1, 0]), ("EOF", [0, 0, 0])]) := by decide +kernel

example : ∃ b hs, writeIc3 cgnsElem2faces id .little .big .v3 noConv twoTetra = (some b, .ok ()) ∧
    readHeaders b = .ok (.big, 3, hs) ∧ hs.map (fun h => (h.name, h.id)) = sections .v3 twoTetra twoTetra.mesh := by
  obtain ⟨b, hb⟩ := twoTetra_written .big .v3
  obtain ⟨hs, h1, h2, -⟩ := C68_brief _ _ _ .big .v3 _ _ b _ twoTetra_names twoTetra_complete hb
  exact ⟨b, hs, hb, h1, h2⟩

end Cfd.Ic3
