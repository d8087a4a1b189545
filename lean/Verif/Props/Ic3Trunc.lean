import Verif.Lemmas.Ic3Mesh
import Verif.Props.Ic3Format

/-! C30: a file cut before its end is never read as a mesh. -/

namespace Cfd.Ic3
open Spec Spec.Ic3

theorem readRestartHeader_prefix (o : Order) (v : Ver) (rest t : Bytes)
    (ht : t <+: intsBytes o 4 [magic, v.num] ++ rest) :
    (∃ er, readRestartHeader t = .error er) ∨
      (readRestartHeader t = .ok (o, v.num) ∧ ∃ r, t = intsBytes o 4 [magic, v.num] ++ r ∧ r <+: rest) := by
  by_cases hl : t.length < 8
  · exact .inl ⟨_, C26_short_refused t hl⟩
  · right
    have hv : FitsInt 4 v.num := by cases v <;> decide
    have h8 : (intsBytes o 4 [magic, v.num]).length = 8 := by simp
    have hp : intsBytes o 4 [magic, v.num] <+: t :=
      List.prefix_of_prefix_length_le (List.prefix_append _ _) ht (by omega)
    obtain ⟨r, rfl⟩ := hp
    refine ⟨?_, r, rfl, (List.prefix_append_right_inj _).1 ht⟩
    obtain ⟨e, he⟩ : ∃ e : Endian, e.order .little = o := by
      cases o
      · exact ⟨.little, rfl⟩
      · exact ⟨.big, rfl⟩
    obtain ⟨b, h1, _, h3⟩ := C26_detects_partial .little e v.num hv r
    rw [show (123581321 : Int) = magic from rfl, packFirst .little e v.num hv, he] at h1
    simp only [Except.ok.injEq] at h1
    rw [h1, h3, he]

/-- A file that stops before the end of its end-of-file section is refused. -/
theorem read_truncated (o : Order) (v : Ver) (secs : List Sec) (hw : ∀ s ∈ secs, SecWF s ∧ Passes s)
    (t : Bytes) (ht : t <+: intsBytes o 4 [magic, v.num] ++ (secsBytes o secs ++ eofSec.bytes o))
    (hne : t ≠ intsBytes o 4 [magic, v.num] ++ (secsBytes o secs ++ eofSec.bytes o)) (integ : Bool) :
    ∃ er, readIc3 integ t = .error er := by
  rcases readRestartHeader_prefix o v _ t ht with ⟨er, h⟩ | ⟨h, r, rfl, c, hc⟩
  · exact ⟨er, by simp [readIc3, readData, h, bind, Except.bind]⟩
  · have hc0 : c ≠ [] := by
      rintro rfl
      rw [List.append_nil] at hc
      exact hne (by rw [hc])
    have hd : (intsBytes o 4 [magic, v.num] ++ r).drop 8 = r := by
      rw [List.drop_append_of_le_length (by simp), List.drop_of_length_le (by simp), List.nil_append]
    obtain ⟨er, hi⟩ := sectionLoop_truncated (o := o) (file := intsBytes o 4 [magic, v.num] ++ r) secs hw 8
      [("step", .int 0), ("dt", .int 0), ("time", .int 0), ("wgt", .wgts [])] c hc0 (by rw [hd, hc])
    unfold readIc3 readData
    rw [h]
    cases hm : readConnectivity integ (intsBytes o 4 [magic, v.num] ++ r) o with
    | error er' => exact ⟨er', by simp [hm, bind, Except.bind]⟩
    | ok m =>
      refine ⟨er, ?_⟩
      simp only [Except_bind_ok, hm]
      unfold readInfo
      rw [hi]
      rfl

/-- C30. Take what `write_data` leaves in the file, complete or interrupted by an exception, and cut it at
any byte: unless it is the complete file, the reader raises. -/
theorem C30_cut_file_refused (tbl : FaceTable) (so : List Int → List Int) (host : Order) (e : Endian)
    (v : Ver) (cv : Conv) (f : FullMesh) (hn : NamesFit f) (b : Bytes) (r : Py Unit)
    (h : writeIc3 tbl so host e v cv f = (some b, r)) (t : Bytes) (ht : t <+: b)
    (hcut : t ≠ b ∨ r ≠ .ok ()) (integ : Bool) :
    ∃ er, readIc3 integ t = .error er := by
  unfold writeIc3 at h
  split at h
  · simp at h
  · rename_i w hw
    simp only [bind_eq_ok] at hw
    obtain ⟨m, h1, h2⟩ := hw
    have hnames := namesOK_of_fit hn h1 h2
    simp only [Prod.mk.injEq, Option.some.injEq] at h
    cases r with
    | ok u =>
      obtain ⟨f1, f2⟩ := write_full hnames (Prod.ext h.1 h.2 : runChunks (fileChunks host e v cv w) = (b, .ok ()))
      have hne : t ≠ b := by simpa using hcut
      rw [f1] at ht hne
      exact read_truncated _ v _ f2 t ht hne integ
    | error er =>
      obtain ⟨secs, f1, f2⟩ := write_part hnames
        (Prod.ext h.1 h.2 : runChunks (fileChunks host e v cv w) = (b, .error er))
      refine read_truncated (e.order host) v secs f1 t ?_ ?_ integ
      · exact (ht.trans f2).trans (by rw [← List.append_assoc]; exact List.prefix_append _ _)
      · intro he
        have h3 := (ht.trans f2).length_le
        rw [he] at h3
        simp only [List.length_append, length_sec (eof_ok host e).2] at h3
        omega

/-- A mesh of one tetrahedron with its four faces, one mark and a cell scalar. -/
def tetra : FullMesh where
  mesh :=
    { ncell := 1, nnode := 4, nface := 4, cell2node := none,
      faces := [("mixed", ⟨⟨4, [("tri3", ⟨.range 0 3, ⟨some 3, [[0, 2, 1], [0, 1, 3], [1, 2, 3], [0, 3, 2]]⟩⟩)]⟩,
        some (some [(0, -1), (0, -1), (0, -1), (0, -1)])⟩)],
      coords := some ([0, 1, 0, 0], [0, 0, 1, 0], [0, 0, 0, 1]),
      bocos := [("wall", ⟨"wall", .bdface, "boundary", .range 0 3, none⟩)] }
  cells := ⟨some ⟨.dataSet, "cellaverage", 1, "instant"⟩, [("P", ⟨[1], .f64 [7]⟩)]⟩
  nodes := []
  params := [("step", .int 3)]
  partition := none

/-- Any conversion: none is needed here. -/
def noConv : Conv := ⟨fun _ => 0, fun _ => .ok 0⟩

-- the hypotheses can be met: the tetrahedron is written by both writers in both byte orders
example : NamesFit tetra where
  marks := by decide
  weights := by intro d hd; simp [tetra, Dict.get?] at hd
  nodes := by decide
  cells := by decide
example : ∀ e ∈ [Endian.native, .little, .big], ∀ v ∈ [Ver.v2, .v3],
    (writeIc3 cgnsElem2faces id .little e v noConv tetra).2 = .ok () := by decide +kernel

theorem tetra_names : NamesFit tetra where
  marks := by decide
  weights := by intro d hd; simp [tetra, Dict.get?] at hd
  nodes := by decide
  cells := by decide

/-- The file of the tetrahedron, cut after 1000 bytes, is refused. -/
example : ∃ b, writeIc3 cgnsElem2faces id .little .native .v3 noConv tetra = (some b, .ok ()) ∧ 1000 < b.length ∧
    ∃ er, readIc3 true (b.take 1000) = .error er := by
  have h : (match writeIc3 cgnsElem2faces id .little .native .v3 noConv tetra with
    | (some b, .ok ()) => decide (1000 < b.length)
    | _ => false) = true := by decide +kernel
  split at h
  · rename_i b hb
    have hl : 1000 < b.length := by simpa using h
    refine ⟨b, hb, hl, C30_cut_file_refused _ _ _ _ _ _ _ tetra_names b _ hb _ (List.take_prefix _ _) (.inl ?_) true⟩
    intro he
    have := congrArg List.length he
    rw [List.length_take] at this
    omega
  · cases h

end Cfd.Ic3
