import Verif.Lemmas.Bytes
import Verif.Spec.Ic3

/-! Lemmas on section headers and on the section scan. -/

namespace Cfd.Ic3
open Spec Spec.Ic3

@[simp] theorem length_nameBytes (name : String) : (nameBytes name).length = 52 := by
  unfold nameBytes
  simp only [List.length_append, List.length_map, List.length_take, List.length_replicate]
  omega

theorem nameItems_eq (name : String) :
    nameItems name = (name.toList.take 52).map (fun c => Item.c (utf8 c)) ++
      List.replicate (52 - name.toList.length) (Item.c [0]) := by
  unfold nameItems nameLen
  apply List.ext_getElem?
  intro i
  rw [List.getElem?_map, List.getElem?_append, List.getElem?_map, List.getElem?_replicate,
    List.getElem?_take]
  simp only [List.length_map, List.length_take]
  by_cases h : i < 52
  · rw [List.getElem?_range h]
    simp only [Option.map_some]
    cases hc : name.toList[i]? with
    | none =>
      have := List.getElem?_eq_none_iff.1 hc
      rw [if_neg (by omega), if_pos (by omega)]
    | some c =>
      have := (List.getElem?_eq_some_iff.1 hc).1
      rw [if_pos (by omega), if_pos h]
      simp
  · rw [List.getElem?_eq_none (by simp; omega)]
    split
    · simp [h]
    · rw [if_neg (by omega)]; rfl

theorem packAll_chars (o : Order) (l : List Char) (b : Bytes) :
    packAll o (l.map (fun c => Item.c (utf8 c))) = .ok b ↔
      (∀ c ∈ l, c.toNat < 128) ∧ b = l.map (fun c => UInt8.ofNat c.toNat) := by
  induction l generalizing b with
  | nil => simp [packAll, eq_comm]
  | cons c t ih =>
    simp only [List.map_cons, packAll, bind_eq_ok, ih, Except_pure, Except.ok.injEq]
    by_cases hc : c.toNat < 128
    · have : utf8 c = [UInt8.ofNat c.toNat] := by simp [utf8, hc]
      simp only [this, Item.pack, Except.ok.injEq]
      constructor
      · rintro ⟨x, rfl, y, ⟨h1, rfl⟩, rfl⟩
        exact ⟨by simp [hc]; exact h1, rfl⟩
      · rintro ⟨h1, rfl⟩
        exact ⟨_, rfl, _, ⟨fun d hd => h1 d (by simp [hd]), rfl⟩, rfl⟩
    · have : utf8 c = [0, 0] := by simp [utf8, hc]
      simp only [this, Item.pack, reduceCtorEq, false_and, exists_false, false_iff]
      rintro ⟨h1, _⟩
      exact hc (h1 c (by simp))

theorem packAll_zeros (o : Order) (n : Nat) :
    packAll o (List.replicate n (Item.c [0])) = .ok (List.replicate n 0) := by
  induction n with
  | zero => rfl
  | succ n ih =>
    simp only [List.replicate_succ, packAll, ih, Item.pack, Except_bind_ok, Except_pure]
    rfl

theorem packAll_name (o : Order) (name : String) (b : Bytes) :
    packAll o (nameItems name) = .ok b ↔
      (∀ c ∈ name.toList.take 52, c.toNat < 128) ∧ b = nameBytes name := by
  rw [nameItems_eq, packAll_append]
  simp only [packAll_zeros, bind_eq_ok, packAll_chars, Except_pure, Except.ok.injEq]
  constructor
  · rintro ⟨x, ⟨h1, rfl⟩, y, rfl, rfl⟩
    exact ⟨h1, rfl⟩
  · rintro ⟨h1, rfl⟩
    exact ⟨_, ⟨h1, rfl⟩, _, rfl, rfl⟩

theorem size_nameItems (name : String) : ∀ x ∈ nameItems name, x.size = 1 := by
  intro x hx
  unfold nameItems at hx
  obtain ⟨i, _, rfl⟩ := List.mem_map.1 hx
  split <;> rfl

theorem length_nameItems (name : String) : (nameItems name).length = 52 := by
  simp [nameItems, nameLen]

theorem sum_size_nameItems (name : String) : ((nameItems name).map Item.size).sum = 52 := by
  have : (nameItems name).map Item.size = List.replicate 52 1 := by
    rw [List.eq_replicate_iff]
    refine ⟨by simp [length_nameItems], ?_⟩
    intro b hb
    obtain ⟨x, hx, rfl⟩ := List.mem_map.1 hb
    exact size_nameItems name x hx
  rw [this]; decide

theorem aligned_items (h : Header) : aligned 0 h.items := by
  unfold Header.items
  rw [List.append_assoc, List.append_assoc, aligned_append]
  refine ⟨aligned_const 0 1 _ (size_nameItems h.name) rfl, ?_⟩
  rw [sum_size_nameItems]
  refine ⟨by simp [Item.size], by simp [Item.size], ?_⟩
  show aligned _ (h.idata.map .q ++ h.rdata.map .d)
  apply aligned_const _ 8
  · intro x hx
    rcases List.mem_append.1 hx with hx | hx <;> obtain ⟨y, _, rfl⟩ := List.mem_map.1 hx <;> rfl
  · simp [Item.size]

theorem write_ok_iff (host : Order) (e : Endian) (h : Header) (b : Bytes) :
    h.write host e = .ok b ↔ h.Packable ∧ b = hdrBytes (e.order host) h := by
  unfold Header.write structPack
  rw [packFrom_aligned _ _ _ _ (fun _ => aligned_items h)]
  generalize e.order host = o
  unfold Header.items
  rw [packAll_append, packAll_append, packAll_append]
  have h2 : ∀ x, packAll o [.i h.id, .q h.skip] = .ok x ↔
      FitsInt 4 h.id ∧ FitsInt 8 h.skip ∧ x = intsBytes o 4 [h.id] ++ intsBytes o 8 [h.skip] := by
    intro x
    have := packAll_append o [.i h.id] [.q h.skip]
    simp only [List.singleton_append] at this
    rw [this]
    have e1 := packAll_ints o [h.id]
    have e2 := packAll_longs o [h.skip]
    simp only [List.map_cons, List.map_nil] at e1 e2
    simp only [bind_eq_ok, e1, e2, Except_pure, Except.ok.injEq, List.mem_singleton, forall_eq]
    constructor
    · rintro ⟨x, ⟨h1, rfl⟩, y, ⟨h3, rfl⟩, rfl⟩; exact ⟨h1, h3, rfl⟩
    · rintro ⟨h1, h3, rfl⟩; exact ⟨_, ⟨h1, rfl⟩, _, ⟨h3, rfl⟩, rfl⟩
  simp only [bind_eq_ok, packAll_name, h2, packAll_longs, packAll_f64s, Except_pure, Except.ok.injEq]
  unfold Header.Packable hdrBytes
  constructor
  · rintro ⟨x, ⟨y, ⟨z, ⟨h1, rfl⟩, u, ⟨h3, h4, rfl⟩, rfl⟩, v, ⟨h5, rfl⟩, rfl⟩, w, rfl, rfl⟩
    exact ⟨⟨h1, h3, h4, h5⟩, by simp⟩
  · rintro ⟨⟨h1, h3, h4, h5⟩, rfl⟩
    exact ⟨_, ⟨_, ⟨_, ⟨h1, rfl⟩, _, ⟨h3, h4, rfl⟩, rfl⟩, _, ⟨h5, rfl⟩, rfl⟩, _, rfl, by simp⟩

theorem length_hdrBytes (o : Order) (h : Header) (h8 : h.idata.length = 8) (h16 : h.rdata.length = 16) :
    (hdrBytes o h).length = 256 := by
  simp [hdrBytes, h8, h16]

theorem char_byte_eq (c : Char) (h : c.toNat < 128) :
    (UInt8.ofNat c.toNat = 0 ↔ c = '\x00') ∧ (UInt8.ofNat c.toNat).toNat = c.toNat := by
  have h2 : (UInt8.ofNat c.toNat).toNat = c.toNat := by
    simp; omega
  refine ⟨?_, h2⟩
  constructor
  · intro h0
    rw [h0] at h2
    apply Char.ext
    apply UInt32.toNat_inj.1
    have : c.val.toNat = c.toNat := rfl
    have e : (0 : UInt8).toNat = 0 := rfl
    rw [this, ← h2, e]
    rfl
  · rintro rfl; rfl

theorem readName_chars (l : List Char) (h : ∀ c ∈ l, c.toNat < 128) (n : Nat) :
    readName (l.map (fun c => UInt8.ofNat c.toNat) ++ List.replicate n 0) =
      .ok (l.takeWhile fun c => decide (c ≠ '\x00')) := by
  induction l with
  | nil => cases n <;> rfl
  | cons c t ih =>
    have hc := h c (by simp)
    obtain ⟨h1, h2⟩ := char_byte_eq c hc
    simp only [List.map_cons, List.cons_append, readName]
    by_cases h0 : c = '\x00'
    · rw [if_pos (h1.2 h0)]
      simp [h0]
    · rw [if_neg (fun h => h0 (h1.1 h)), h2, if_pos hc, ih (fun d hd => h d (by simp [hd]))]
      simp only [Except_bind_ok, Except_pure]
      rw [List.takeWhile_cons_of_pos (by simp [h0])]
      simp

theorem parse_hdrBytes (o : Order) (h : Header) (hp : h.Packable) (h8 : h.idata.length = 8)
    (h16 : h.rdata.length = 16) :
    parseHeader o (hdrBytes o h) = .ok { h with name := readable h.name } := by
  obtain ⟨hn, hid, hsk, hi⟩ := hp
  unfold parseHeader
  have e1 : (hdrBytes o h).take 52 = nameBytes h.name := by
    unfold hdrBytes
    rw [List.take_append_of_le_length (by simp), List.take_of_length_le (by simp)]
  have d1 : (hdrBytes o h).drop 52 = intsBytes o 4 [h.id] ++ (intsBytes o 8 [h.skip] ++
    (intsBytes o 8 h.idata ++ f64sBytes o h.rdata)) := by
    unfold hdrBytes
    rw [List.drop_append_of_le_length (by simp), List.drop_of_length_le (by simp), List.nil_append]
  have d2 : (hdrBytes o h).drop 56 = intsBytes o 8 [h.skip] ++
    (intsBytes o 8 h.idata ++ f64sBytes o h.rdata) := by
    rw [show 56 = 52 + 4 by rfl, ← List.drop_drop, d1, List.drop_append_of_le_length (by simp),
      List.drop_of_length_le (by simp), List.nil_append]
  have d3 : (hdrBytes o h).drop 64 = intsBytes o 8 h.idata ++ f64sBytes o h.rdata := by
    rw [show 64 = 56 + 8 by rfl, ← List.drop_drop, d2, List.drop_append_of_le_length (by simp),
      List.drop_of_length_le (by simp), List.nil_append]
  have d4 : (hdrBytes o h).drop 128 = f64sBytes o h.rdata := by
    rw [show 128 = 64 + 64 by rfl, ← List.drop_drop, d3, List.drop_append_of_le_length (by simp [h8]),
      List.drop_of_length_le (by simp [h8]), List.nil_append]
  have t1 : unpackInt o (((hdrBytes o h).drop 52).take 4) = h.id := by
    rw [d1, List.take_append_of_le_length (by simp), List.take_of_length_le (by simp)]
    simp only [intsBytes, List.flatMap_cons, List.flatMap_nil, List.append_nil]
    exact unpack_natBytes o 4 (by decide) _ hid
  have t2 : unpackInt o (((hdrBytes o h).drop 56).take 8) = h.skip := by
    rw [d2, List.take_append_of_le_length (by simp), List.take_of_length_le (by simp)]
    simp only [intsBytes, List.flatMap_cons, List.flatMap_nil, List.append_nil]
    exact unpack_natBytes o 8 (by decide) _ hsk
  have t3 : unpackInts o 8 8 ((hdrBytes o h).drop 64) = h.idata := by
    rw [d3]
    have := unpackInts_intsBytes o 8 (by decide) h.idata hi (f64sBytes o h.rdata)
    rwa [h8] at this
  have t4 : unpackF64s o 16 ((hdrBytes o h).drop 128) = h.rdata := by
    rw [d4]
    have := unpackF64s_f64sBytes o h.rdata []
    rwa [h16, List.append_nil] at this
  rw [e1, t1, t2, t3, t4]
  unfold nameBytes
  rw [readName_chars _ hn]
  rfl


/-! ## Reading in a concatenation -/

theorem readAt_append (a b c : Bytes) : readAt (a ++ (b ++ c)) a.length b.length = some b := by
  unfold readAt
  rw [List.drop_append_of_le_length (Nat.le_refl _), List.drop_of_length_le (Nat.le_refl _),
    List.nil_append, List.take_append_of_le_length (Nat.le_refl _),
    List.take_of_length_le (Nat.le_refl _)]
  simp

theorem readAt_append' {a b c : Bytes} {p n : Nat} (hp : p = a.length) (hn : n = b.length) :
    readAt (a ++ (b ++ c)) p n = some b := by
  subst hp hn; exact readAt_append a b c

theorem takeWhile_all {α : Type} (p : α → Bool) (l : List α) (h : ∀ x ∈ l, p x = true) :
    l.takeWhile p = l := by
  induction l with
  | nil => rfl
  | cons x t ih =>
    rw [List.takeWhile_cons_of_pos (h x (by simp)), ih (fun y hy => h y (by simp [hy]))]

theorem readable_good {name : String} (h : GoodName name) : readable name = name := by
  unfold readable
  rw [List.take_of_length_le h.1, takeWhile_all, String.ofList_toList]
  intro c hc
  simpa using (h.2 c hc).2

theorem _root_.Cfd.Spec.Ic3.GoodHeader.packable {h : Header} (g : GoodHeader h) : h.Packable :=
  ⟨fun c hc => (g.name.2 c (List.mem_of_mem_take hc)).1, g.id, g.skip, g.ints.2⟩

theorem length_hdr {o : Order} {h : Header} (g : GoodHeader h) : (hdrBytes o h).length = 256 :=
  length_hdrBytes o h g.ints.1 g.reals

theorem parse_good {o : Order} {h : Header} (g : GoodHeader h) :
    parseHeader o (hdrBytes o h) = .ok h := by
  rw [parse_hdrBytes o h g.packable g.ints.1 g.reals, readable_good g.name]

/-- One step of the scan on a well-formed header. -/
theorem scan_hdr (o : Order) (ids : List Int) (a c : Bytes) (h : Header) (g : GoodHeader h) :
    scan (a ++ (hdrBytes o h ++ c)) o ids a.length =
      if endName h.name then .ok (.absent (a.length + 256))
      else if h.id ∈ ids then .ok (.found h (a.length + 256))
      else if h.id = cEof then .ok (.absent (a.length + 256))
      else scan (a ++ (hdrBytes o h ++ c)) o ids (nextPos a.length h.skip) := by
  have hr : readAt (a ++ (hdrBytes o h ++ c)) a.length hsize = some (hdrBytes o h) :=
    readAt_append' rfl (by rw [length_hdr g]; rfl)
  rw [scan]
  split
  · rename_i h1; rw [hr] at h1; simp at h1
  · rename_i b h1
    rw [hr] at h1
    simp only [Option.some.injEq] at h1
    subst h1
    rw [parse_good g]
    rfl

theorem length_sec {o : Order} {s : Sec} (w : SecWF s) : (s.bytes o).length = 256 + s.payload.length := by
  simp [Sec.bytes, length_hdr w.header]

theorem nextPos_sec {s : Sec} (w : SecWF s) (p : Nat) :
    nextPos p s.h.skip = p + (256 + s.payload.length) := by
  unfold nextPos
  have := w.skip
  rw [if_pos (by omega)]
  omega

/-- The scan jumps over sections that are not wanted. -/
theorem scan_skip (o : Order) (ids : List Int) (a c : Bytes) (l : List Sec) (hw : ∀ s ∈ l, SecWF s)
    (hn : ∀ s ∈ l, s.h.id ∉ ids ∧ s.h.id ≠ cEof) :
    scan (a ++ (secsBytes o l ++ c)) o ids a.length =
      scan (a ++ (secsBytes o l ++ c)) o ids (a.length + (secsBytes o l).length) := by
  induction l generalizing a with
  | nil => simp [secsBytes]
  | cons s t ih =>
    have w := hw s (by simp)
    have hs := hn s (by simp)
    have e : a ++ (secsBytes o (s :: t) ++ c) = a ++ (hdrBytes o s.h ++ (s.payload ++ (secsBytes o t ++ c))) := by
      simp [secsBytes, Sec.bytes]
    have e2 : a ++ (secsBytes o (s :: t) ++ c) = (a ++ s.bytes o) ++ (secsBytes o t ++ c) := by
      simp [secsBytes]
    have st := scan_hdr o ids a (s.payload ++ (secsBytes o t ++ c)) s.h w.header
    rw [← e] at st
    rw [st, w.name, if_neg (by simp), if_neg hs.1, if_neg hs.2, nextPos_sec w]
    have := ih (a ++ s.bytes o) (fun x hx => hw x (by simp [hx])) (fun x hx => hn x (by simp [hx]))
    rw [← e2] at this
    rw [List.length_append, length_sec w] at this
    rw [this]
    congr 1
    simp only [secsBytes, List.flatMap_cons, List.length_append, length_sec w]
    omega

theorem scan_found (o : Order) (ids : List Int) (a c : Bytes) (l : List Sec) (s : Sec)
    (hw : ∀ x ∈ l, SecWF x) (hn : ∀ x ∈ l, x.h.id ∉ ids ∧ x.h.id ≠ cEof) (w : SecWF s)
    (hid : s.h.id ∈ ids) :
    scan (a ++ (secsBytes o l ++ (s.bytes o ++ c))) o ids a.length =
      .ok (.found s.h (a.length + (secsBytes o l).length + 256)) := by
  rw [scan_skip o ids a _ l hw hn]
  have := scan_hdr o ids (a ++ secsBytes o l) (s.payload ++ c) s.h w.header
  rw [List.append_assoc] at this
  have e : s.bytes o ++ c = hdrBytes o s.h ++ (s.payload ++ c) := by simp [Sec.bytes]
  rw [e]
  rw [List.length_append] at this
  rw [this, w.name, if_neg (by simp), if_pos hid]

theorem scan_absent (o : Order) (ids : List Int) (a c : Bytes) (l : List Sec) (s : Sec)
    (hw : ∀ x ∈ l, SecWF x) (hn : ∀ x ∈ l, x.h.id ∉ ids ∧ x.h.id ≠ cEof) (w : SecWF s)
    (hid : s.h.id = cEof) (hids : cEof ∉ ids) :
    scan (a ++ (secsBytes o l ++ (s.bytes o ++ c))) o ids a.length =
      .ok (.absent (a.length + (secsBytes o l).length + 256)) := by
  rw [scan_skip o ids a _ l hw hn]
  have := scan_hdr o ids (a ++ secsBytes o l) (s.payload ++ c) s.h w.header
  rw [List.append_assoc] at this
  have e : s.bytes o ++ c = hdrBytes o s.h ++ (s.payload ++ c) := by simp [Sec.bytes]
  rw [e]
  rw [List.length_append] at this
  rw [this, w.name, if_neg (by simp), if_neg (by rw [hid]; exact hids), if_pos hid]

end Cfd.Ic3
