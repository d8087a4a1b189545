import Mathlib.Data.List.Basic
import Mathlib.Data.List.Nodup
import Mathlib.Data.Finset.Card
import Verif.Lemmas.Basic
import Verif.Spec.Files

/-!
# Lemmas on paths and on the search of a safe name
-/

namespace Cfd
open Spec

theorem splitSlash_ne_nil (s : Name) : splitSlash s ≠ [] := by
  cases s with
  | nil => simp [splitSlash]
  | cons c t =>
      unfold splitSlash
      split
      · simp
      · split <;> simp

theorem splitSlash_no_slash (s : Name) : ∀ n ∈ splitSlash s, '/' ∉ n := by
  induction s with
  | nil => simp [splitSlash]
  | cons c t ih =>
      unfold splitSlash
      split
      · intro n hn
        rcases List.mem_cons.1 hn with rfl | h
        · simp
        · exact ih n h
      · rename_i hc
        cases hs : splitSlash t with
        | nil => exact absurd hs (splitSlash_ne_nil t)
        | cons h r =>
            rw [hs] at ih
            intro n hn
            rcases List.mem_cons.1 hn with rfl | h'
            · simp only [List.mem_cons, not_or]
              exact ⟨fun h => hc h.symm, ih h (by simp)⟩
            · exact ih n (by simp [h'])

theorem splitSlash_of_no_slash (s : Name) (h : '/' ∉ s) : splitSlash s = [s] := by
  induction s with
  | nil => rfl
  | cons c t ih =>
      have hc : c ≠ '/' := fun hc => h (by simp [hc])
      have ht : '/' ∉ t := fun ht => h (by simp [ht])
      unfold splitSlash
      rw [if_neg hc, ih ht]

theorem parse_good (s : Name) : GoodPath (PyPath.parse s) := by
  intro n hn
  simp only [PyPath.parse, List.mem_filter, Bool.and_eq_true, decide_eq_true_eq] at hn
  exact ⟨hn.2.1, hn.2.2, splitSlash_no_slash s n hn.1⟩

theorem parse_single (n : Name) (h1 : n ≠ []) (h2 : n ≠ ['.']) (h3 : '/' ∉ n) :
    PyPath.parse n = ⟨false, [n]⟩ := by
  have hd : n.head? ≠ some '/' := by
    cases n with
    | nil => simp
    | cons c t => intro h; simp at h; exact h3 (by simp [h])
  simp [PyPath.parse, splitSlash_of_no_slash n h3, h1, h2, hd]

theorem parse_nil : PyPath.parse [] = ⟨false, []⟩ := by rfl

theorem lastDot_none {n : Name} (h : lastDot n = none) : '.' ∉ n := by
  induction n with
  | nil => simp
  | cons c t ih =>
      unfold lastDot at h
      cases ht : lastDot t with
      | some ab => rw [ht] at h; simp at h
      | none =>
          rw [ht] at h
          simp only [List.mem_cons, not_or]
          refine ⟨fun hc => ?_, ih ht⟩
          rw [if_pos hc.symm] at h
          simp at h

theorem lastDot_some {n a b : Name} (h : lastDot n = some (a, b)) :
    n = a ++ b ∧ ∃ e, b = '.' :: e ∧ '.' ∉ e := by
  induction n generalizing a b with
  | nil => simp [lastDot] at h
  | cons c t ih =>
      unfold lastDot at h
      cases ht : lastDot t with
      | some ab =>
          rw [ht] at h
          simp only [Option.some.injEq, Prod.mk.injEq] at h
          obtain ⟨rfl, rfl⟩ := h
          obtain ⟨h1, h2⟩ := ih (a := ab.1) (b := ab.2) ht
          exact ⟨by rw [h1]; rfl, h2⟩
      | none =>
          rw [ht] at h
          by_cases hc : c = '.'
          · rw [if_pos hc] at h
            simp only [Option.some.injEq, Prod.mk.injEq] at h
            obtain ⟨rfl, rfl⟩ := h
            exact ⟨rfl, t, by rw [hc], lastDot_none ht⟩
          · rw [if_neg hc] at h; simp at h

theorem append_dot_inj {a a' e e' : Name} (h : a ++ '.' :: e = a' ++ '.' :: e') (he : '.' ∉ e)
    (he' : '.' ∉ e') : a = a' ∧ e = e' := by
  rcases List.append_eq_append_iff.1 h with ⟨c, h1, h2⟩ | ⟨c, h1, h2⟩
  · cases c with
    | nil => simp at h2; exact ⟨by simp [h1], h2⟩
    | cons x c' =>
        simp only [List.cons_append, List.cons.injEq] at h2
        exact absurd (by rw [h2.2]; simp) he
  · cases c with
    | nil => simp at h2; exact ⟨by simp [h1], h2.symm⟩
    | cons x c' =>
        simp only [List.cons_append, List.cons.injEq] at h2
        exact absurd (by rw [h2.2]; simp) he'

theorem splitext_prefix (s : Name) : (splitext s).1 <+: s := by
  unfold splitext
  split
  · rename_i a b h
    split
    · exact ⟨b, (lastDot_some h).1.symm⟩
    · exact List.prefix_refl _
  · exact List.prefix_refl _

theorem lastDot_append {a e : Name} (h : '.' ∉ e) : lastDot (a ++ '.' :: e) = some (a, '.' :: e) := by
  cases h1 : lastDot (a ++ '.' :: e) with
  | none => exact absurd (lastDot_none h1) (by simp)
  | some ab =>
    obtain ⟨a', b'⟩ := ab
    obtain ⟨h2, e', rfl, h3⟩ := lastDot_some h1
    obtain ⟨rfl, rfl⟩ := append_dot_inj h2 h h3
    rfl

/-- Last component of a string. -/
theorem takeWhile_component {folder base : Name} (hf : folder = [] ∨ folder.getLast? = some '/') (hb : '/' ∉ base) :
    (folder ++ base).reverse.takeWhile (· ≠ '/') = base.reverse := by
  rw [List.reverse_append, List.takeWhile_append_of_pos (by intro c hc; simp only [decide_eq_true_eq]; rintro rfl; exact hb (List.mem_reverse.1 hc))]
  rcases hf with rfl | hf
  · simp
  · have : folder.reverse.head? = some '/' := by rw [List.head?_reverse]; exact hf
    cases h : folder.reverse with
    | nil => simp
    | cons c t => rw [h] at this; simp only [List.head?_cons, Option.some.injEq] at this; subst this; simp

theorem splitext_of_hasExt {name root ext : Name} (h : HasExt name root ext) : splitext name = (root, ext) := by
  obtain ⟨rfl, folder, base, e, rfl, hf, hb, ⟨c, hc, hd⟩, rfl, he, hs⟩ := h
  unfold splitext
  rw [lastDot_append he]
  dsimp only
  rw [takeWhile_component hf hb, if_pos]
  refine ⟨by simp [hs], ?_⟩
  rw [List.any_eq_true]
  exact ⟨c, List.mem_reverse.2 hc, by simpa using hd⟩

theorem exists_component (a : Name) : ∃ folder base, a = folder ++ base ∧ (folder = [] ∨ folder.getLast? = some '/') ∧ '/' ∉ base := by
  induction a with
  | nil => exact ⟨[], [], rfl, .inl rfl, by simp⟩
  | cons c t ih =>
    obtain ⟨folder, base, rfl, hf, hb⟩ := ih
    by_cases hn : folder = []
    · subst hn
      by_cases hc : c = '/'
      · exact ⟨['/'], base, by simp [hc], .inr rfl, hb⟩
      · exact ⟨[], c :: base, rfl, .inl rfl, by simp [hb, Ne.symm hc]⟩
    · refine ⟨c :: folder, base, rfl, .inr ?_, hb⟩
      rw [List.getLast?_cons, hf.resolve_left hn]
      rfl

theorem xmfName_spec (name : Name) : DescriptionName name (xmfName name) := by
  by_cases h : ∃ root ext, HasExt name root ext
  · obtain ⟨root, ext, h⟩ := h
    exact .inl ⟨root, ext, h, by rw [xmfName, splitext_of_hasExt h]⟩
  · refine .inr ⟨h, ?_⟩
    unfold xmfName splitext
    split
    · rename_i a b hl
      split
      · rename_i hc
        exfalso
        apply h
        obtain ⟨rfl, e, rfl, he⟩ := lastDot_some hl
        obtain ⟨folder, base, rfl, hf, hb⟩ := exists_component a
        rw [takeWhile_component hf hb, List.any_eq_true] at hc
        obtain ⟨hs, c, hc1, hc2⟩ := hc
        exact ⟨_, _, rfl, folder, base, e, rfl, hf, hb, ⟨c, List.mem_reverse.1 hc1, by simpa using hc2⟩, rfl, he,
          fun hm => hs (List.mem_cons_of_mem _ hm)⟩
      · rfl
    · rfl

/-- Files of a folder: the folder is written before the name. -/
theorem child_str (folder : PyPath) : ∃ pre : Name, (pre = [] ∨ pre.getLast? = some '/') ∧ ∀ n, (child folder n).str = pre ++ n := by
  obtain ⟨root, parts⟩ := folder
  have key : ∃ pre : Name, (pre = [] ∨ pre.getLast? = some '/') ∧
      ∀ n, List.intercalate ['/'] (parts ++ [n]) = pre ++ n := by
    induction parts with
    | nil => exact ⟨[], .inl rfl, fun n => by simp [List.intercalate]⟩
    | cons a t ih =>
      obtain ⟨pre, hp, h⟩ := ih
      refine ⟨a ++ '/' :: pre, .inr ?_, fun n => ?_⟩
      · rcases hp with rfl | hp
        · simp
        · rw [List.getLast?_append, List.getLast?_cons, hp]; rfl
      · rw [List.cons_append, show a ++ '/' :: pre ++ n = a ++ '/' :: (pre ++ n) by simp, ← h n]
        cases t <;> simp [List.intercalate, List.intersperse]
  obtain ⟨pre, hp, h⟩ := key
  cases root with
  | false => exact ⟨pre, hp, fun n => by simp [PyPath.str, child, h]⟩
  | true =>
    refine ⟨'/' :: pre, .inr ?_, fun n => by simp [PyPath.str, child, h]⟩
    rcases hp with rfl | hp
    · rfl
    · rw [List.getLast?_cons, hp]; rfl

/-- Stem and suffix satisfy their specification. -/
theorem nameParts_stemSuffix (p : PyPath) : NameParts p.name p.stem p.suffix := by
  unfold PyPath.stem PyPath.suffix PyPath.stemSuffix
  cases h : lastDot p.name with
  | none =>
      refine ⟨by simp, Or.inl ⟨rfl, ?_⟩⟩
      rintro ⟨s, e, -, -, -, hn⟩
      exact lastDot_none h (by rw [hn]; simp)
  | some ab =>
      obtain ⟨a, b⟩ := ab
      obtain ⟨h1, e, rfl, he⟩ := lastDot_some h
      simp only
      split
      · rename_i hc
        refine ⟨h1, Or.inr ⟨hc.1, e, ?_, he, rfl⟩⟩
        intro h0
        simp [h0] at hc
      · rename_i hc
        refine ⟨by simp, Or.inl ⟨rfl, ?_⟩⟩
        rintro ⟨s, e', hs, he', hd, hn⟩
        obtain ⟨rfl, rfl⟩ := append_dot_inj (h1.symm.trans hn) he hd
        refine hc ⟨hs, ?_⟩
        cases e with
        | nil => exact absurd rfl he'
        | cons => simp

/-- The specification determines stem and suffix. -/
theorem nameParts_unique {n s f s' f' : Name} (h : NameParts n s f) (h' : NameParts n s' f') :
    s = s' ∧ f = f' := by
  obtain ⟨h1, h2⟩ := h
  obtain ⟨h1', h2'⟩ := h'
  rcases h2 with ⟨rfl, hno⟩ | ⟨hs, e, he, hd, rfl⟩
  · rcases h2' with ⟨rfl, -⟩ | ⟨hs', e', he', hd', rfl⟩
    · simp at h1 h1'
      exact ⟨by rw [← h1, h1'], rfl⟩
    · exact absurd ⟨s', e', hs', he', hd', h1'⟩ hno
  · rcases h2' with ⟨rfl, hno⟩ | ⟨hs', e', he', hd', rfl⟩
    · exact absurd ⟨s, e, hs, he, hd, h1⟩ hno
    · obtain ⟨rfl, rfl⟩ := append_dot_inj (h1.symm.trans h1') hd hd'
      exact ⟨rfl, rfl⟩

theorem name_no_slash {p : PyPath} (hp : GoodPath p) : '/' ∉ p.name := by
  unfold PyPath.name
  cases h : p.parts.getLast? with
  | none => simp
  | some n => exact (hp n (List.mem_of_getLast? h)).2.2

theorem toDigits_no_slash (i : Nat) : '/' ∉ Nat.toDigits 10 i := by
  intro h
  have := Nat.isDigit_of_mem_toDigits (by decide) (by decide) h
  revert this
  decide

theorem toDigits_no_dot (i : Nat) : '.' ∉ Nat.toDigits 10 i := by
  intro h
  have := Nat.isDigit_of_mem_toDigits (by decide) (by decide) h
  revert this
  decide

theorem numbered_good {p : PyPath} (hp : GoodPath p) (i : Nat) :
    numberedName p.stem p.suffix i ≠ [] ∧ numberedName p.stem p.suffix i ≠ ['.'] ∧
    '/' ∉ numberedName p.stem p.suffix i := by
  have hn := name_no_slash hp
  rw [(nameParts_stemSuffix p).1] at hn
  simp only [List.mem_append, not_or] at hn
  have hd := toDigits_no_slash i
  refine ⟨by simp [numberedName], ?_, ?_⟩
  · intro h
    have : '(' ∈ ['.'] := by rw [← h]; simp [numberedName]
    revert this
    decide
  · simp only [numberedName, List.mem_append, List.mem_cons, not_or]
    exact ⟨⟨hn.1, ⟨by decide, hd⟩, by decide⟩, hn.2⟩

theorem join_numbered {p : PyPath} (hp : GoodPath p) (i : Nat) :
    p.parent.join (PyPath.parse (p.stem ++ counter i ++ p.suffix)) =
      child p.parent (numberedName p.stem p.suffix i) := by
  have h := numbered_good hp i
  have e : p.stem ++ counter i ++ p.suffix = numberedName p.stem p.suffix i := rfl
  rw [e, parse_single _ h.1 h.2.1 h.2.2]
  rfl

theorem numbered_inj {s f : Name} {i j : Nat} (h : numberedName s f i = numberedName s f j) : i = j := by
  unfold numberedName at h
  have h1 := List.append_cancel_left (List.append_cancel_right h)
  simp only [List.cons_append, List.cons.injEq, true_and] at h1
  have h2 := List.append_cancel_right h1
  rw [← Nat.ofDigitChars_ten_toDigits (n := i), h2, Nat.ofDigitChars_ten_toDigits]

/-- The path tested after `i` increments. -/
def tested (p : PyPath) (i : Nat) : PyPath :=
  if i = 0 then p else child p.parent (numberedName p.stem p.suffix i)

theorem safeLoop_of_free {ex : PyPath → Bool} {p : PyPath} (hp : GoodPath p) (k fuel i : Nat)
    (h1 : ∀ j, j < k → ex (tested p (i + j)) = true) (h2 : ex (tested p (i + k)) = false)
    (hf : k < fuel) :
    safeLoop ex p.parent p.stem p.suffix fuel i (tested p i) = some (i + k, tested p (i + k)) := by
  induction k generalizing fuel i with
  | zero =>
      cases fuel with
      | zero => omega
      | succ f =>
          unfold safeLoop
          rw [if_neg (by simpa using h2)]
          rfl
  | succ k ih =>
      cases fuel with
      | zero => omega
      | succ f =>
          unfold safeLoop
          rw [if_pos (by simpa using h1 0 (by omega)), join_numbered hp]
          have e : child p.parent (numberedName p.stem p.suffix (i + 1)) = tested p (i + 1) := by
            simp [tested]
          rw [e, ih f (i + 1) (fun j hj => by
            have := h1 (j + 1) (by omega)
            rwa [show i + 1 + j = i + (j + 1) by omega]) (by
            rwa [show i + 1 + k = i + (k + 1) by omega]) (by omega)]
          rw [show i + 1 + k = i + (k + 1) by omega]

theorem safeLoop_sound {ex : PyPath → Bool} {p : PyPath} (hp : GoodPath p) (fuel i n : Nat)
    (q : PyPath) (h : safeLoop ex p.parent p.stem p.suffix fuel i (tested p i) = some (n, q)) :
    i ≤ n ∧ q = tested p n ∧ ex q = false ∧ ∀ j, i ≤ j → j < n → ex (tested p j) = true := by
  induction fuel generalizing i with
  | zero => simp [safeLoop] at h
  | succ f ih =>
      unfold safeLoop at h
      split at h
      · rename_i hx
        rw [join_numbered hp] at h
        have e : child p.parent (numberedName p.stem p.suffix (i + 1)) = tested p (i + 1) := by
          simp [tested]
        rw [e] at h
        obtain ⟨h1, h2, h3, h4⟩ := ih (i + 1) h
        refine ⟨by omega, h2, h3, fun j hj hj' => ?_⟩
        by_cases hij : j = i
        · rw [hij]; exact hx
        · exact h4 j (by omega) hj'
      · rename_i hx
        simp only [Option.some.injEq, Prod.mk.injEq] at h
        obtain ⟨rfl, rfl⟩ := h
        exact ⟨le_refl _, rfl, by simpa using hx, fun j hj hj' => by omega⟩

/-- One of the numbered names is free in a finite folder. -/
theorem exists_free {ex : PyPath → Bool} {p : PyPath} (hfin : FiniteFolder ex p.parent) :
    ∃ k, ex (tested p k) = false := by
  by_contra hno
  push Not at hno
  obtain ⟨names, hn⟩ := hfin
  have hin : ∀ i, numberedName p.stem p.suffix (i + 1) ∈ names := fun i => by
    apply hn
    have := hno (i + 1)
    simpa [tested] using this
  have hnd : ((List.range (names.length + 1)).map fun (i : Nat) => numberedName p.stem p.suffix (i + 1)).Nodup :=
    List.Nodup.map_on (fun a _ b _ hab => by have := numbered_inj hab; omega) List.nodup_range
  have hle := (List.Nodup.subperm hnd (l₂ := names) (fun x hx => by
    obtain ⟨i, -, rfl⟩ := List.mem_map.1 hx
    exact hin i)).length_le
  simp at hle
  omega

theorem findSafe_sound {ex : PyPath → Bool} {p q : PyPath} {fuel : Nat} {c : Bool} (hp : GoodPath p)
    (h : findSafe ex fuel p = some (c, q)) : SafeName ex p c q := by
  unfold findSafe at h
  simp only [Option.map_eq_some_iff, Prod.mk.injEq] at h
  obtain ⟨⟨n, q'⟩, h1, h2, rfl⟩ := h
  obtain ⟨-, h4, h5, h6⟩ := safeLoop_sound (ex := ex) hp fuel 0 n q' h1
  refine ⟨h5, ?_⟩
  simp only at h2 h4
  by_cases hn : n = 0
  · left
    subst hn
    exact ⟨by simpa using h2.symm, by simpa [tested] using h4⟩
  · right
    refine ⟨by rw [← h2]; simp; omega, by simpa [tested] using h6 0 (by omega) (by omega),
      p.stem, p.suffix, n, nameParts_stemSuffix p, by omega, by simpa [tested, hn] using h4, ?_⟩
    intro j hj hj'
    have := h6 j (by omega) hj'
    simpa [tested, show j ≠ 0 by omega] using this

theorem findSafe_terminates {ex : PyPath → Bool} {p : PyPath} (hp : GoodPath p)
    (hfin : FiniteFolder ex p.parent) :
    ∃ n c q, ∀ fuel, n ≤ fuel → findSafe ex fuel p = some (c, q) := by
  classical
  obtain ⟨h1⟩ : Nonempty (∃ k, ex (tested p k) = false) := ⟨exists_free hfin⟩
  have h2 := Nat.find_spec h1
  have h3 : ∀ j, j < Nat.find h1 → ex (tested p j) = true := fun j hj => by
    simpa using Nat.find_min h1 hj
  refine ⟨Nat.find h1 + 1, decide (0 < Nat.find h1), tested p (Nat.find h1), fun fuel hf => ?_⟩
  unfold findSafe
  have := safeLoop_of_free (ex := ex) hp (Nat.find h1) fuel 0 (by simpa using h3) (by simpa using h2)
    (by omega)
  rw [show tested p 0 = p from rfl] at this
  rw [this]
  simp

theorem numbered_parts {n s f : Name} (h : NameParts n s f) (hdot : n.getLast? ≠ some '.') (i : Nat) :
    NameParts (numberedName s f i) (s ++ ('(' :: Nat.toDigits 10 i ++ [')'])) f := by
  refine ⟨rfl, ?_⟩
  obtain ⟨h1, h2⟩ := h
  rcases h2 with ⟨rfl, hno⟩ | ⟨hs, e, he, hd, rfl⟩
  · refine Or.inl ⟨rfl, ?_⟩
    rintro ⟨s', e, hs', he, hd, hn⟩
    simp only [numberedName, List.append_nil] at hn h1
    subst h1
    rcases List.append_eq_append_iff.1 hn with ⟨c, h3, h4⟩ | ⟨c, h3, h4⟩
    · have : '.' ∈ '(' :: Nat.toDigits 10 i ++ [')'] := by rw [h4]; simp
      simp only [List.mem_append, List.mem_cons] at this
      have hd' := toDigits_no_dot i
      revert this
      simp [hd']
    · cases c with
      | nil =>
          simp only [List.nil_append, List.cons_append] at h4
          have := (List.cons.inj h4).1
          revert this
          decide
      | cons x c' =>
          simp only [List.cons_append, List.cons.injEq] at h4
          obtain ⟨rfl, h5⟩ := h4
          cases hc : c' with
          | nil => rw [h3, hc] at hdot; simp at hdot
          | cons y c'' =>
              refine hno ⟨s', c', hs', by simp [hc], fun hm => hd (by rw [h5]; simp [hm]), h3⟩
  · exact Or.inr ⟨by simp, e, he, hd, rfl⟩

theorem child_name (folder : PyPath) (n : Name) : (child folder n).name = n := by
  simp [child, PyPath.name]

theorem child_parent (folder : PyPath) (n : Name) : (child folder n).parent = folder := by
  simp [child, PyPath.parent]

theorem withSuffix_good {p q : PyPath} {ext : Name} (hp : GoodPath p) (hext : ext ≠ [])
    (h : p.withSuffix ext = .ok q) :
    GoodPath q := by
  unfold PyPath.withSuffix at h
  split at h
  · simp at h
  · split at h
    · simp at h
    · split at h
      · simp at h
      · rename_i h1 h2 h3
        simp only [Except.ok.injEq] at h
        subst h
        intro n hn
        simp only [List.mem_append, List.mem_singleton] at hn
        rcases hn with hn | rfl
        · exact hp n (List.dropLast_subset _ hn)
        · have hsl := name_no_slash hp
          obtain ⟨e1, e2⟩ := nameParts_stemSuffix p
          rw [e1] at hsl
          simp only [List.mem_append, not_or] at hsl
          have hst : p.stem ≠ [] := by
            rcases e2 with ⟨h0, -⟩ | ⟨h0, -⟩
            · rw [h0] at e1; simp at e1; rw [← e1]; exact h3
            · exact h0
          refine ⟨by simp [hst], ?_, by simp [hsl.1, h1]⟩
          intro hd
          have hl : p.stem.length + ext.length = 1 := by simpa using congrArg List.length hd
          have hl0 : 0 < p.stem.length := List.length_pos_iff.2 hst
          exact hext (List.length_eq_zero_iff.1 (by omega))

theorem changeDir_good (d : Name) (p : PyPath) : GoodPath (changeDir d p) := by
  intro n hn
  unfold changeDir PyPath.join at hn
  split at hn
  · exact parse_good _ n hn
  · rcases List.mem_append.1 (show n ∈ _ ++ _ from hn) with hn | hn
    · exact parse_good _ n hn
    · exact parse_good _ n hn

theorem name_good {p : PyPath} (hp : GoodPath p) (h : p.name ≠ []) :
    p.name ≠ [] ∧ p.name ≠ ['.'] ∧ '/' ∉ p.name := by
  refine ⟨h, ?_, name_no_slash hp⟩
  unfold PyPath.name at *
  cases hl : p.parts.getLast? with
  | none => rw [hl] at h; simp at h
  | some m => exact (hp m (List.mem_of_getLast? hl)).2.1

theorem withSuffix_parts {p q : PyPath} {e : Name} (hp : GoodPath p) (he : e ≠ []) (hd : '.' ∉ e)
    (h : p.withSuffix ('.' :: e) = .ok q) :
    q.parent = p.parent ∧ NameParts q.name p.stem ('.' :: e) := by
  unfold PyPath.withSuffix at h
  split at h
  · simp at h
  · split at h
    · simp at h
    · split at h
      · simp at h
      · rename_i h1 h2 h3
        simp only [Except.ok.injEq] at h
        subst h
        refine ⟨by simp [PyPath.parent], ?_⟩
        have hn : (PyPath.mk p.root (p.parts.dropLast ++ [p.stem ++ '.' :: e])).name =
            p.stem ++ '.' :: e := by simp [PyPath.name]
        rw [hn]
        obtain ⟨e1, e2⟩ := nameParts_stemSuffix p
        have hst : p.stem ≠ [] := by
          rcases e2 with ⟨h0, -⟩ | ⟨h0, -⟩
          · rw [h0] at e1; simp at e1; rw [← e1]; exact h3
          · exact h0
        exact ⟨rfl, Or.inr ⟨hst, e, he, hd, rfl⟩⟩

section
variable {Loc M : Type} [DecidableEq Loc]

theorem outputName_free {s : Fs Loc} {fuel : Nat} {filename : Name} {outpath : Option Name} {ext : Name}
    {p : PyPath} (hext : ext ≠ []) (h : outputName s fuel filename outpath ext = some (.ok p)) :
    s.content (s.resolve p.str) = none := by
  have key : ∀ q : PyPath, GoodPath q → ∀ r, (match q.withSuffix ext with
      | .error e => some (.error e)
      | .ok file => (findSafe s.has fuel file).map fun r => (.ok r.2 : Py PyPath)) = some (.ok r) →
      s.content (s.resolve r.str) = none := by
    intro q hq r hr
    cases hw : q.withSuffix ext with
    | error e => rw [hw] at hr; simp at hr
    | ok file =>
        rw [hw] at hr
        simp only [Option.map_eq_some_iff, Except.ok.injEq] at hr
        obtain ⟨⟨c, x⟩, h1, h2⟩ := hr
        have := (findSafe_sound (withSuffix_good hq hext hw) h1).1
        simp only at h2
        subst h2
        simpa [Fs.has] using this
  unfold outputName at h
  cases outpath with
  | none => exact key _ (parse_good _) p h
  | some d =>
      exact key _ (changeDir_good _ _) p h

theorem removeDir_parent (filename : Name) (h0 : (PyPath.parse filename).name ≠ []) :
    (removeDir (PyPath.parse filename)).parent = PyPath.parse [] := by
  obtain ⟨h1, h2, h3⟩ := name_good (parse_good filename) h0
  unfold removeDir
  rw [parse_single _ h1 h2 h3]; rfl

theorem changeDir_parent (d filename : Name) (h0 : (PyPath.parse filename).name ≠ []) :
    (changeDir d (PyPath.parse filename)).parent = PyPath.parse d := by
  obtain ⟨h1, h2, h3⟩ := name_good (parse_good filename) h0
  unfold changeDir
  rw [parse_single _ h1 h2 h3]
  simp [PyPath.join, PyPath.parent]

theorem outputName_place {s : Fs Loc} {fuel : Nat} {q p folder : PyPath} {e : Name} (he : e ≠ [])
    (hd : '.' ∉ e) (hq : GoodPath q) (hf : q.parent = folder)
    (h : (match q.withSuffix ('.' :: e) with
      | .error er => some (.error er)
      | .ok file => (findSafe s.has fuel file).map fun r => (.ok r.2 : Py PyPath)) = some (.ok p)) :
    p.suffix = '.' :: e ∧ p.parent = folder := by
  cases hw : q.withSuffix ('.' :: e) with
  | error er => rw [hw] at h; simp at h
  | ok file =>
      rw [hw] at h
      simp only [Option.map_eq_some_iff, Except.ok.injEq] at h
      obtain ⟨⟨c, x⟩, h1, rfl⟩ := h
      have hg := withSuffix_good hq (by simp) hw
      obtain ⟨hpar, hnp⟩ := withSuffix_parts hq he hd hw
      obtain ⟨-, ⟨-, rfl⟩ | ⟨-, -, stem, suff, i, h2, -, rfl, -⟩⟩ := findSafe_sound hg h1
      · exact ⟨(nameParts_unique (nameParts_stemSuffix _) hnp).2, hpar.trans hf⟩
      · obtain ⟨rfl, rfl⟩ := nameParts_unique h2 hnp
        refine ⟨?_, by rw [child_parent, hpar, hf]⟩
        have h3 := numbered_parts h2 (by
          rw [h2.1, List.getLast?_append_of_ne_nil _ (by simp)]
          rw [List.getLast?_cons]
          cases hl : e.getLast? with
          | none => simp at hl; exact absurd hl he
          | some x =>
              simp only [Option.getD_some, ne_eq, Option.some.injEq]
              rintro rfl
              exact hd (List.mem_of_getLast? hl)) i
        have h4 := nameParts_stemSuffix (child file.parent (numberedName q.stem ('.' :: e) i))
        rw [child_name] at h4
        exact (nameParts_unique h4 h3).2

theorem runWriter_content (writer : M → PyErr ⊕ (List UInt8 × Py Unit)) (s : Fs Loc) (p : PyPath) (m : M)
    (l : Loc) : (runWriter writer s p m).1.content l = s.content l ∨ l = s.resolve p.str := by
  unfold runWriter
  split
  · exact Or.inl rfl
  · by_cases hl : l = s.resolve p.str
    · exact Or.inr hl
    · left; simp [Fs.write, hl]
  · by_cases hl : l = s.resolve p.str
    · exact Or.inr hl
    · left; simp [Fs.write, hl]

end

/-- A file system with one file has finite folders. -/
theorem oneFile_finite (name : Name) (b : List UInt8) (folder : PyPath) :
    FiniteFolder (Fs.has (⟨id, fun l => if l = name then some b else none⟩ : Fs Name)) folder := by
  refine ⟨name.tails, fun n hn => ?_⟩
  have hstr : (child folder n).str = name := by
    unfold Fs.has at hn
    simp only [id] at hn
    by_contra h
    rw [if_neg h] at hn
    cases hn
  have hint : ∀ l : List Name, ∃ p, List.intercalate ['/'] (l ++ [n]) = p ++ n := by
    intro l
    induction l with
    | nil => exact ⟨[], by simp [List.intercalate]⟩
    | cons a l ih =>
      obtain ⟨p, hp⟩ := ih
      cases l with
      | nil => exact ⟨a ++ ['/'], by simp [List.intercalate]⟩
      | cons b l =>
        refine ⟨a ++ ['/'] ++ p, ?_⟩
        rw [List.append_assoc, ← hp]
        simp [List.intercalate]
  rw [List.mem_tails, ← hstr]
  obtain ⟨p, hp⟩ := hint folder.parts
  unfold PyPath.str child
  split
  · exact ⟨'/' :: p, by rw [hp]; rfl⟩
  · rw [if_neg (by simp), hp]
    exact ⟨p, rfl⟩

end Cfd
