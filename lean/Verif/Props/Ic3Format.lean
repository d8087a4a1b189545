import Verif.Lemmas.Ic3Format

/-! C25 (section headers), C26 (byte order and version), C27 (section scan). -/

namespace Cfd.Ic3
open Spec Spec.Ic3

/-! ## C25 -/

/-- C25: any header that fits the format is written, in any byte order (native, little, big, on a machine
of either order), as exactly the 256 bytes of the format (no alignment padding), and reading these bytes
with the same order gives the header back. -/
theorem C25_round_trip (host : Order) (e : Endian) (h : Header) (g : GoodHeader h) :
    ∃ b, h.write host e = .ok b ∧ b = hdrBytes (e.order host) h ∧ b.length = 256 ∧
      parseHeader (e.order host) b = .ok h :=
  ⟨_, (write_ok_iff host e h _).2 ⟨g.packable, rfl⟩, rfl, length_hdr g, parse_good g⟩

/-- C25: a longer ASCII name is cut to 52 characters, the rest of the header is unaffected. -/
theorem C25_long_name (host : Order) (e : Endian) (h : Header)
    (hn : ∀ c ∈ h.name.toList, c.toNat < 128 ∧ c ≠ '\x00') (hid : FitsInt 4 h.id)
    (hsk : FitsInt 8 h.skip) (hi : h.idata.length = 8 ∧ ∀ n ∈ h.idata, FitsInt 8 n)
    (hr : h.rdata.length = 16) :
    ∃ b, h.write host e = .ok b ∧ b.length = 256 ∧
      parseHeader (e.order host) b = .ok { h with name := String.ofList (h.name.toList.take 52) } := by
  have hp : h.Packable := ⟨fun c hc => (hn c (List.mem_of_mem_take hc)).1, hid, hsk, hi.2⟩
  refine ⟨_, (write_ok_iff host e h _).2 ⟨hp, rfl⟩, length_hdrBytes _ _ hi.1 hr, ?_⟩
  rw [parse_hdrBytes _ _ hp hi.1 hr]
  unfold readable
  rw [takeWhile_all]
  intro c hc
  simpa using (hn c (List.mem_of_mem_take hc)).2

/-- All errors of packing are `struct.error`. -/
theorem packFrom_error (n : Bool) (o : Order) (pos : Nat) (l : List Item) (er : PyErr)
    (h : packFrom n o pos l = .error er) : er = .struct := by
  induction l generalizing pos with
  | nil => simp [packFrom] at h
  | cons x t ih =>
    unfold packFrom at h
    cases hx : x.pack o with
    | error e' =>
      rw [hx] at h
      simp only [bind, Except.bind, Except.error.injEq] at h
      subst h
      cases x with
      | c b =>
        unfold Item.pack at hx
        split at hx <;> simp_all
      | i n => simp only [Item.pack, packInt] at hx; split at hx <;> simp_all
      | q n => simp only [Item.pack, packInt] at hx; split at hx <;> simp_all
      | d y => simp [Item.pack] at hx
    | ok b =>
      rw [hx] at h
      simp only [bind, Except.bind] at h
      cases hr : packFrom n o (pos + padding n pos x.size + x.size) t with
      | error e' =>
        rw [hr] at h
        simp only [Except.error.injEq] at h
        subst h
        exact ih _ hr
      | ok r => rw [hr] at h; simp [pure, Except.pure] at h

/-- C25: a header with an integer out of range, or with a non-ASCII character among the first 52, is
refused with `struct.error`: nothing is written. -/
theorem C25_refused (host : Order) (e : Endian) (h : Header)
    (hb : ¬ FitsInt 4 h.id ∨ ¬ FitsInt 8 h.skip ∨ (∃ n ∈ h.idata, ¬ FitsInt 8 n) ∨
      ∃ c ∈ h.name.toList.take 52, 128 ≤ c.toNat) :
    h.write host e = .error .struct := by
  cases hw : h.write host e with
  | error er => rw [packFrom_error _ _ _ _ _ hw]
  | ok b =>
    obtain ⟨h1, h2, h3, h4⟩ := ((write_ok_iff host e h b).1 hw).1
    rcases hb with hb | hb | ⟨n, hn, hb⟩ | ⟨c, hc, hb⟩
    · exact absurd h2 hb
    · exact absurd h3 hb
    · exact absurd (h4 n hn) hb
    · have := h1 c hc; omega

/-- A header of a face zone. -/
def exHeader : Header :=
  mkHeader "periodic-left" cFaZone 256 [2, 0, -3] [0x3ff0000000000000, 0, 0x8000000000000000]

theorem exHeader_good : GoodHeader exHeader := by
  constructor <;> decide

/-- Cases of the other theorems on headers: a name of 60 characters, numbers that do not fit. -/
example := C25_long_name .little .big (mkHeader (String.ofList (List.replicate 60 'a')) cFaZone 256 [2])
  (by decide) (by decide) (by decide) (by decide) (by decide)
example := C25_refused .little .big (mkHeader "a" (2 ^ 31) 256 []) (.inl (by decide))
example := C25_refused .little .native (mkHeader "é" cFaZone 256 []) (.inr (.inr (.inr (by decide))))

example : ∃ b, exHeader.write .little .native = .ok b ∧ parseHeader .little b = .ok exHeader := by
  obtain ⟨b, h1, _, _, h2⟩ := C25_round_trip .little .native exHeader exHeader_good
  exact ⟨b, h1, h2⟩

/-- Any NUL inside a name ends it for the reader: the condition on names is needed. -/
theorem C25_nul_cuts_name :
    ∃ (h : Header) (b : Bytes), h.write .little .big = .ok b ∧
      (parseHeader .big b).toOption.map (·.name) = some "a" ∧ h.name = "a\x00b" := by
  refine ⟨mkHeader "a\x00b" 1 256 [], hdrBytes .big (mkHeader "a\x00b" 1 256 []), ?_, ?_, rfl⟩
  · rw [write_ok_iff]
    refine ⟨⟨by decide, by decide, by decide, by decide⟩, rfl⟩
  · rw [parse_hdrBytes]
    · decide
    · exact ⟨by decide, by decide, by decide, by decide⟩
    · rfl
    · rfl

/-! ## C26 -/

theorem packFirst (host : Order) (e : Endian) (v : Int) (hv : FitsInt 4 v) :
    structPack host e [.i magic, .i v] = .ok (intsBytes (e.order host) 4 [magic, v]) := by
  unfold structPack
  rw [packFrom_aligned]
  · exact (packAll_ints _ [magic, v] _).2 ⟨by
      intro n hn
      simp only [List.mem_cons, List.not_mem_nil, or_false] at hn
      rcases hn with rfl | rfl
      · decide
      · exact hv, rfl⟩
  · intro _
    exact ⟨by simp [Item.size], by simp [Item.size], trivial⟩

/-- C26: whatever the version number written, in any byte order, and whatever follows, the reader finds
the byte order used and the version. Missing: the refusal of wrong magic numbers, refuted below (the exact
behaviour is `C26_any_magic_accepted`). -/
theorem C26_detects_partial (host : Order) (e : Endian) (v : Int) (hv : FitsInt 4 v) (rest : Bytes) :
    ∃ b, structPack host e [.i 123581321, .i v] = .ok b ∧ b.length = 8 ∧
      readRestartHeader (b ++ rest) = .ok (e.order host, v) := by
  refine ⟨_, packFirst host e v hv, by simp, ?_⟩
  generalize e.order host = o
  have hm : FitsInt 4 magic := by decide
  have e1 : intsBytes o 4 [magic, v] = natBytes o 4 (magic % (2 ^ (8 * 4) : Int)).toNat ++
      natBytes o 4 (v % (2 ^ (8 * 4) : Int)).toNat := by simp [intsBytes]
  have hr : readAt (intsBytes o 4 [magic, v] ++ rest) 0 8 = some (intsBytes o 4 [magic, v]) :=
    readAt_append' (a := []) rfl (by simp)
  unfold readRestartHeader
  rw [hr]
  simp only
  rw [e1, List.take_append_of_le_length (by simp), List.take_of_length_le (by simp),
    List.drop_append_of_le_length (by simp), List.drop_of_length_le (by simp), List.nil_append]
  cases o with
  | big =>
    rw [unpack_natBytes .big 4 (by decide) _ hm, unpack_natBytes .big 4 (by decide) _ hv]
    simp
  | little =>
    rw [if_pos (by decide)]
    have := pack_unpackInt .big (natBytes .little 4 (v % (2 ^ (8 * 4) : Int)).toNat) (by simp)
    rw [length_natBytes] at this
    rw [this, Except_bind_ok, unpack_natBytes .little 4 (by decide) _ hv]
    rfl

example := C26_detects_partial .little .big 3 (by decide) [1, 2, 3]

/-- C26: with fewer than 8 bytes the file is refused. -/
theorem C26_short_refused (file : Bytes) (h : file.length < 8) :
    readRestartHeader file = .error .type := by
  have : readAt file 0 8 = none := by
    unfold readAt
    simp only [List.drop_zero, List.length_take]
    rw [if_neg (by omega)]
  unfold readRestartHeader
  rw [this]

example := C26_short_refused [1, 2, 3, 4, 5, 6, 7] (by decide)

/-- C26 (what the code does with a wrong magic number): any 8 bytes are accepted; whenever the first four
are not the magic number in big endian, the file is taken as little endian. -/
theorem C26_any_magic_accepted (file : Bytes) (h : 8 ≤ file.length) :
    ∃ o v, readRestartHeader file = .ok (o, v) ∧
      (o = .big ↔ unpackInt .big (file.take 4) = 123581321) := by
  have hr : readAt file 0 8 = some (file.take 8) := by
    unfold readAt
    simp only [List.drop_zero, List.length_take]
    rw [if_pos (by omega)]
  unfold readRestartHeader
  rw [hr]
  have ht : (file.take 8).take 4 = file.take 4 := by simp [List.take_take]
  have hl : ((file.take 8).drop 4).length = 4 := by simp; omega
  simp only [ht]
  split
  · rename_i hne
    have := pack_unpackInt .big ((file.take 8).drop 4) (by omega)
    rw [hl] at this
    rw [this]
    exact ⟨.little, _, rfl, by simp; exact hne⟩
  · rename_i he
    refine ⟨.big, _, rfl, ?_⟩
    simpa [magic] using he

example := C26_any_magic_accepted [1, 2, 3, 4, 5, 6, 7, 8, 9] (by decide)

/-- A file of zeros is not refused: it is read as a little endian file of version 0. -/
theorem C26_wrong_magic_refused_refuted :
    readRestartHeader (List.replicate 8 0) = .ok (.little, 0) ∧
      unpackInt .little (List.replicate 4 0) ≠ 123581321 := by
  decide

/-! ## C27 -/

/-- C27: on any byte string the scan ends; each step goes forward (by at least one byte). -/
theorem C27_steps_forward (pos : Nat) (skip : Int) : pos < nextPos pos skip := nextPos_gt pos skip

/-- C27: one step of the scan, on any byte string. With fewer than 256 bytes left it raises. Otherwise the 256 bytes
are decoded: a name beginning with DEOF or, among the sections not wanted, the end-of-file identifier ends the scan, a
wanted identifier is reported, and any other section is passed, by the number of bytes it announces when that number is
positive (even when it is less than the size of the header), by the size of the header otherwise. -/
theorem C27_step (file : Bytes) (o : Order) (ids : List Int) (pos : Nat) :
    (file.length < pos + 256 → scan file o ids pos = .error .type) ∧
    (pos + 256 ≤ file.length →
      (∀ er, parseHeader o ((file.drop pos).take 256) = .error er → scan file o ids pos = .error er) ∧
      ∀ h, parseHeader o ((file.drop pos).take 256) = .ok h →
        scan file o ids pos =
          if endName h.name then .ok (.absent (pos + 256))
          else if h.id ∈ ids then .ok (.found h (pos + 256))
          else if h.id = 51 then .ok (.absent (pos + 256))
          else scan file o ids (if 0 < h.skip then pos + h.skip.toNat else pos + 256)) := by
  refine ⟨fun hl => ?_, fun hl => ?_⟩
  · have hr : readAt file pos hsize = none := by
      unfold readAt
      simp only
      rw [if_neg]
      simp only [List.length_take, List.length_drop, hsize]
      omega
    rw [scan]
    split
    · rfl
    · rename_i h1; rw [hr] at h1; simp at h1
  · have hr : readAt file pos hsize = some ((file.drop pos).take 256) := by
      unfold readAt
      simp only
      rw [if_pos]
      · rfl
      · simp only [List.length_take, List.length_drop, hsize]
        omega
    refine ⟨fun er he => ?_, fun h he => ?_⟩
    · rw [scan]
      split
      · rename_i h1; rw [hr] at h1; simp at h1
      · rename_i h1; rw [hr] at h1
        simp only [Option.some.injEq] at h1
        subst h1
        rw [he]
    · rw [scan]
      split
      · rename_i h1; rw [hr] at h1; simp at h1
      · rename_i h1; rw [hr] at h1
        simp only [Option.some.injEq] at h1
        subst h1
        rw [he]
        rfl

/-- A section which announces one byte: the next header is read one byte further. -/
example := (C27_step (hdrBytes .big (mkHeader "a" 60 1 []) ++ [0]) .big [23] 0).2 (by decide +kernel)


/-- C27: on any byte string, a section reported by the scan is really there: its 256 bytes are in the file
just before the reported position and at or after the start, they decode to the reported header, and the
identifier is one of those wanted. -/
theorem C27_found_sound (file : Bytes) (o : Order) (ids : List Int) (pos : Nat) (h : Header) (p : Nat)
    (hs : scan file o ids pos = .ok (.found h p)) :
    pos + 256 ≤ p ∧ p ≤ file.length ∧ h.id ∈ ids ∧ endName h.name = false ∧
      parseHeader o ((file.drop (p - 256)).take 256) = .ok h := by
  fun_induction scan file o ids pos with
  | case1 => simp at hs
  | case2 => simp at hs
  | case3 => simp at hs
  | case4 pos b hr h' hp hd hid =>
      simp only [Except.ok.injEq, Scan.found.injEq] at hs
      obtain ⟨rfl, rfl⟩ := hs
      have hl := readAt_length hr (by decide)
      have hb : b = (file.drop pos).take 256 := by
        unfold readAt at hr
        simp only at hr
        split at hr
        · simpa [eq_comm, hsize] using hr
        · simp at hr
      refine ⟨Nat.le_refl _, hl, hid, (by simpa using hd : isDeof _ = false), ?_⟩
      rw [show pos + hsize - 256 = pos by simp [hsize], ← hb]
      exact hp
  | case5 => simp at hs
  | case6 pos b hr h' hp hd hid he ih =>
      obtain ⟨h1, h2⟩ := ih hs
      have := nextPos_gt pos h'.skip
      exact ⟨by omega, h2⟩

/-- C27: in a file made of well-formed sections (any payloads, any bytes before the start), the scan
returns the first section with a wanted identifier, positioned at its payload, provided the end-of-file
section does not come first. -/
theorem C27_first_match (o : Order) (ids : List Int) (before rest : Bytes) (l : List Sec) (s : Sec)
    (hl : ∀ x ∈ l, SecWF x) (hs : SecWF s)
    (hn : ∀ x ∈ l, x.h.id ∉ ids ∧ x.h.id ≠ 51) (hid : s.h.id ∈ ids) :
    ∃ p, scan (before ++ (secsBytes o l ++ (s.bytes o ++ rest))) o ids before.length = .ok (.found s.h p) ∧
      (before ++ (secsBytes o l ++ (s.bytes o ++ rest))).drop p = s.payload ++ rest := by
  refine ⟨_, scan_found o ids before rest l s hl hn hs hid, ?_⟩
  have e : before ++ (secsBytes o l ++ (s.bytes o ++ rest)) =
      (before ++ secsBytes o l ++ hdrBytes o s.h) ++ (s.payload ++ rest) := by simp [Sec.bytes]
  rw [e, List.drop_append_of_le_length (by simp [length_hdr hs.header]; omega),
    List.drop_of_length_le (by simp [length_hdr hs.header]; omega), List.nil_append]

/-- C27: when the end-of-file section comes before any wanted section, the absence is reported. -/
theorem C27_absent (o : Order) (ids : List Int) (before rest : Bytes) (l : List Sec) (s : Sec)
    (hl : ∀ x ∈ l, SecWF x) (hs : SecWF s)
    (hn : ∀ x ∈ l, x.h.id ∉ ids ∧ x.h.id ≠ 51) (hid : s.h.id = 51) (hids : 51 ∉ ids) :
    ∃ p, scan (before ++ (secsBytes o l ++ (s.bytes o ++ rest))) o ids before.length = .ok (.absent p) :=
  ⟨_, scan_absent o ids before rest l s hl hn hs hid hids⟩

/-- C27: a section whose name begins with DEOF ends the scan, whatever its identifier and whatever
follows. -/
theorem C27_deof_stops (o : Order) (ids : List Int) (before rest : Bytes) (l : List Sec) (h : Header)
    (hl : ∀ x ∈ l, SecWF x) (hn : ∀ x ∈ l, x.h.id ∉ ids ∧ x.h.id ≠ 51)
    (g : GoodHeader h) (hd : endName h.name = true) :
    ∃ p, scan (before ++ (secsBytes o l ++ (hdrBytes o h ++ rest))) o ids before.length = .ok (.absent p) := by
  rw [scan_skip o ids before _ l hl hn]
  have := scan_hdr o ids (before ++ secsBytes o l) rest h g
  rw [List.append_assoc, List.length_append, if_pos hd] at this
  exact ⟨_, this⟩

/-- C27: without any end (the sections stop with the file), the scan raises. -/
theorem C27_no_end_raises (o : Order) (ids : List Int) (before : Bytes) (l : List Sec)
    (hl : ∀ x ∈ l, SecWF x) (hn : ∀ x ∈ l, x.h.id ∉ ids ∧ x.h.id ≠ 51) :
    scan (before ++ secsBytes o l) o ids before.length = .error .type := by
  have := scan_skip o ids before [] l hl hn
  simp only [List.append_nil] at this
  rw [this, scan]
  have hr : readAt (before ++ secsBytes o l) (before.length + (secsBytes o l).length) hsize = none := by
    unfold readAt
    rw [List.drop_of_length_le (by simp)]
    rfl
  split
  · rfl
  · rename_i h1; rw [hr] at h1; simp at h1

/-- Two sections then the end. -/
def exSecs : List Sec :=
  [⟨mkHeader "DT" cD0 256 [], []⟩, ⟨mkHeader "V" cCvD1 264 [1], [1, 2, 3, 4, 5, 6, 7, 8]⟩]

theorem exSecs_wf : ∀ x ∈ exSecs, SecWF x := by
  intro x hx
  simp only [exSecs, List.mem_cons, List.not_mem_nil, or_false] at hx
  rcases hx with rfl | rfl
  · exact ⟨⟨by decide, by decide, by decide, by decide, by decide⟩, by decide, by decide⟩
  · exact ⟨⟨by decide, by decide, by decide, by decide, by decide⟩, by decide, by decide⟩

/-- A section with three bytes, and the end of file. -/
def exXno : Sec := ⟨mkHeader "X" cXno 259 [1], [1, 2, 3]⟩
/-- The end of file section. -/
def exEof : Sec := ⟨mkHeader "EOF" cEof 256 [], []⟩

theorem exXno_wf : SecWF exXno := ⟨⟨by decide, by decide, by decide, by decide, by decide⟩, by decide, by decide⟩
theorem exEof_wf : SecWF exEof := ⟨⟨by decide, by decide, by decide, by decide, by decide⟩, by decide, by decide⟩

/-- Cases of the theorems of C27. -/
example := C27_first_match .big [cXno] [1, 2, 3] [9] exSecs exXno exSecs_wf exXno_wf (by decide) (by decide)
example : ∃ h p, scan ([1, 2, 3] ++ (secsBytes .big exSecs ++ (exXno.bytes .big ++ [9]))) .big [cXno] 3 =
    .ok (.found h p) ∧ 3 + 256 ≤ p := by
  obtain ⟨p, h, -⟩ := C27_first_match .big [cXno] [1, 2, 3] [9] exSecs exXno exSecs_wf exXno_wf (by decide) (by decide)
  exact ⟨_, p, h, (C27_found_sound _ _ _ _ _ _ h).1⟩
example := C27_absent .big [cXno] [1, 2, 3] [9] exSecs exEof exSecs_wf exEof_wf (by decide) (by decide) (by decide)
example := C27_deof_stops .big [cXno] [1, 2, 3] [9] exSecs (mkHeader "DEOF" 7 256 []) exSecs_wf (by decide)
  ⟨by decide, by decide, by decide, by decide, by decide⟩ (by decide)
example := C27_no_end_raises .big [cXno] [1, 2, 3] exSecs exSecs_wf (by decide)

example : (∀ x ∈ exSecs, SecWF x) ∧ (∀ x ∈ exSecs, x.h.id ∉ [cXno] ∧ x.h.id ≠ cEof) := by
  refine ⟨?_, by decide⟩
  intro x hx
  simp only [exSecs, List.mem_cons, List.not_mem_nil, or_false] at hx
  rcases hx with rfl | rfl
  · exact ⟨⟨by decide, by decide, by decide, by decide, by decide⟩, by decide, by decide⟩
  · exact ⟨⟨by decide, by decide, by decide, by decide, by decide⟩, by decide, by decide⟩

theorem headersFrom_secs (o : Order) (a rest : Bytes) (l : List Sec) (s : Sec)
    (hl : ∀ x ∈ l, SecWF x) (hs : SecWF s)
    (hn : ∀ x ∈ l, x.h.id ∈ allCodes ∧ x.h.id ≠ cEof) (hid : s.h.id = cEof) :
    headersFrom (a ++ (secsBytes o l ++ (s.bytes o ++ rest))) o a.length =
      .ok (l.map (·.h) ++ [s.h]) := by
  induction l generalizing a with
  | nil =>
    have := scan_found o allCodes a rest [] s (by simp) (by simp) hs (by rw [hid]; decide)
    rw [headersFrom]
    split
    · rename_i h1; rw [this] at h1; simp at h1
    · rename_i h1; rw [this] at h1; simp at h1
    · rename_i h1
      rw [this] at h1
      simp only [Except.ok.injEq, Scan.found.injEq] at h1
      obtain ⟨rfl, rfl⟩ := h1
      simp [hid]
  | cons x t ih =>
    have w := hl x (by simp)
    have hx := hn x (by simp)
    have e : a ++ (secsBytes o (x :: t) ++ (s.bytes o ++ rest)) =
        a ++ (secsBytes o [] ++ (x.bytes o ++ (secsBytes o t ++ (s.bytes o ++ rest)))) := by
      simp [secsBytes]
    have e2 : a ++ (secsBytes o (x :: t) ++ (s.bytes o ++ rest)) =
        (a ++ x.bytes o) ++ (secsBytes o t ++ (s.bytes o ++ rest)) := by
      simp [secsBytes]
    have sf := scan_found o allCodes a (secsBytes o t ++ (s.bytes o ++ rest)) [] x (by simp) (by simp) w hx.1
    rw [← e] at sf
    have := ih (a ++ x.bytes o) (fun y hy => hl y (by simp [hy])) (fun y hy => hn y (by simp [hy]))
    rw [← e2, List.length_append, length_sec w] at this
    rw [headersFrom]
    split
    · rename_i h1; rw [sf] at h1; simp at h1
    · rename_i h1; rw [sf] at h1; simp at h1
    · rename_i h1
      rw [sf] at h1
      simp only [Except.ok.injEq, Scan.found.injEq] at h1
      obtain ⟨rfl, rfl⟩ := h1
      rw [if_neg hx.2]
      have e3 : nextPos (a.length + (secsBytes o []).length + 256 - hsize) x.h.skip =
          a.length + (256 + x.payload.length) := by
        rw [nextPos_sec w]
        simp [secsBytes, hsize]
      rw [e3, this]
      rfl

/-- C27: `read_headers` lists the headers of all sections, in order, up to and including the end-of-file
section. -/
theorem C27_read_headers (o : Order) (v : Int) (hv : FitsInt 4 v) (rest : Bytes) (l : List Sec) (s : Sec)
    (hl : ∀ x ∈ l, SecWF x) (hs : SecWF s)
    (hn : ∀ x ∈ l, x.h.id ∈ codes ∧ x.h.id ≠ 51) (hid : s.h.id = 51) :
    readHeaders (intsBytes o 4 [123581321, v] ++ (secsBytes o l ++ (s.bytes o ++ rest))) =
      .ok (o, v, l.map (·.h) ++ [s.h]) := by
  let e : Endian := match o with | .little => .little | .big => .big
  have he : e.order .little = o := by cases o <;> rfl
  obtain ⟨b, h1, h2, h3⟩ := C26_detects_partial .little e v hv (secsBytes o l ++ (s.bytes o ++ rest))
  rw [show (123581321 : Int) = magic from rfl, packFirst .little e v hv, he] at h1
  simp only [Except.ok.injEq] at h1
  subst h1
  unfold readHeaders
  rw [show (123581321 : Int) = magic from rfl, h3, he]
  simp only [Except_bind_ok]
  have := headersFrom_secs o (intsBytes o 4 [magic, v]) rest l s hl hs hn hid
  rw [h2] at this
  rw [this]
  rfl

example := C27_read_headers .little 3 (by decide) [9] exSecs exEof exSecs_wf exEof_wf (by decide) (by decide)

/-- C27: no two kinds of sections share an identifier, so a section found is of the wanted kind. -/
theorem C27_codes_distinct : allCodes = codes ∧ codes.Nodup := by decide

end Cfd.Ic3
