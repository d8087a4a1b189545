import Mathlib.Data.List.Induction
import Verif.Lemmas.Basic
import Verif.Spec.Api

/-!
# Lemmas on the format registry
-/

namespace Cfd
open Spec

variable {C : Type}

theorem registerAll_append (h : List (Registration C)) (r : Registration C) :
    registerAll (h ++ [r]) = register (registerAll h) r := by
  simp [registerAll]

theorem lastExt_append (h : List (Registration C)) (r : Registration C) (n : String) (e : Name) :
    LastExt (h ++ [r]) n e ↔ (r.name = n ∧ r.ext = e) ∨ (r.name ≠ n ∧ LastExt h n e) := by
  constructor
  · rintro ⟨pre, x, post, heq, h1, h2, h3⟩
    rcases List.eq_nil_or_concat post with rfl | ⟨post', y, rfl⟩
    · obtain ⟨rfl, hx⟩ := List.append_inj' heq rfl
      simp only [List.cons.injEq, and_true] at hx
      subst hx
      exact Or.inl ⟨h1, h2⟩
    · rw [List.concat_eq_append] at *
      rw [← List.cons_append, ← List.append_assoc] at heq
      obtain ⟨rfl, hx⟩ := List.append_inj' heq rfl
      simp only [List.cons.injEq, and_true] at hx
      subst hx
      exact Or.inr ⟨h3 _ (by simp), pre, x, post', rfl, h1, h2, fun s hs => h3 s (by simp [hs])⟩
  · rintro (⟨h1, h2⟩ | ⟨h1, pre, x, post, rfl, h2, h3, h4⟩)
    · exact ⟨h, r, [], rfl, h1, h2, by simp⟩
    · refine ⟨pre, x, post ++ [r], by simp, h2, h3, fun s hs => ?_⟩
      rcases List.mem_append.1 hs with hs | hs
      · exact h4 s hs
      · simp only [List.mem_singleton] at hs; subst hs; exact h1

theorem lastClass_append (h : List (Registration C)) (r : Registration C) (b : Bool) (n : String)
    (c : Option C) : LastClass (h ++ [r]) b n c ↔
      (r.name = n ∧ r.isReader = b ∧ c = some r.cls) ∨
      (¬ (r.name = n ∧ r.isReader = b) ∧ LastClass h b n c) := by
  cases c with
  | none =>
      constructor
      · intro hl
        refine Or.inr ⟨hl r (by simp), fun s hs => hl s (by simp [hs])⟩
      · rintro (⟨-, -, h3⟩ | ⟨h1, h2⟩)
        · simp at h3
        · intro s hs
          rcases List.mem_append.1 hs with hs | hs
          · exact h2 s hs
          · simp only [List.mem_singleton] at hs; subst hs; exact h1
  | some c =>
      constructor
      · rintro ⟨pre, x, post, heq, h1, h2, h3, h4⟩
        rcases List.eq_nil_or_concat post with rfl | ⟨post', y, rfl⟩
        · obtain ⟨rfl, hx⟩ := List.append_inj' heq rfl
          simp only [List.cons.injEq, and_true] at hx
          subst hx
          exact Or.inl ⟨h1, h2, by rw [h3]⟩
        · rw [List.concat_eq_append] at *
          rw [← List.cons_append, ← List.append_assoc] at heq
          obtain ⟨rfl, hx⟩ := List.append_inj' heq rfl
          simp only [List.cons.injEq, and_true] at hx
          subst hx
          exact Or.inr ⟨h4 _ (by simp), pre, x, post', rfl, h1, h2, h3, fun s hs => h4 s (by simp [hs])⟩
      · rintro (⟨h1, h2, h3⟩ | ⟨h1, pre, x, post, rfl, h2, h3, h4, h5⟩)
        · exact ⟨h, r, [], rfl, h1, h2, by simpa using h3.symm, by simp⟩
        · refine ⟨pre, x, post ++ [r], by simp, h2, h3, h4, fun s hs => ?_⟩
          rcases List.mem_append.1 hs with hs | hs
          · exact h5 s hs
          · simp only [List.mem_singleton] at hs; subst hs; exact h1

theorem get?_register (reg : Registry C) (r : Registration C) (n : String) :
    (register reg r).get? n = if r.name = n then
      some (match reg.get? n with
        | some f => if r.isReader then { f with reader := some r.cls, ext := r.ext }
            else { f with writer := some r.cls, ext := r.ext }
        | none => if r.isReader then ⟨some r.cls, none, r.ext⟩ else ⟨none, some r.cls, r.ext⟩)
      else reg.get? n := by
  unfold register
  by_cases h : r.name = n
  · subst h
    rw [if_pos rfl]
    cases reg.get? r.name <;> exact Dict.get?_set_self _ _ _
  · rw [if_neg h]
    cases reg.get? r.name <;> exact Dict.get?_set_ne _ _ (fun h' => h h'.symm)

theorem nodup_registerAll (h : List (Registration C)) : (registerAll h).keys.Nodup := by
  induction h using List.reverseRecOn with
  | nil => exact List.nodup_nil
  | append_singleton h r ih =>
      rw [registerAll_append]
      unfold register
      cases (registerAll h).get? r.name <;> exact Dict.nodup_keys_set ih _ _

theorem registerAll_none (h : List (Registration C)) (n : String) :
    (registerAll h).get? n = none ↔ (∀ r ∈ h, r.name ≠ n) := by
  induction h using List.reverseRecOn with
  | nil => simp [registerAll, Dict.get?]
  | append_singleton h r' ih' =>
      rw [registerAll_append, get?_register]
      by_cases hr : r'.name = n
      · rw [if_pos hr]; simp [hr]
      · rw [if_neg hr, ih']
        constructor
        · intro hh r hm
          rcases List.mem_append.1 hm with hm | hm
          · exact hh r hm
          · simp only [List.mem_singleton] at hm; subst hm; exact hr
        · exact fun hh r hm => hh r (by simp [hm])

/-- The entry of a format, described by the history. -/
theorem get?_registerAll (h : List (Registration C)) (n : String) (f : Format C) :
    (registerAll h).get? n = some f ↔
      LastExt h n f.ext ∧ LastClass h true n f.reader ∧ LastClass h false n f.writer := by
  induction h using List.reverseRecOn generalizing f with
  | nil =>
      constructor
      · intro h; simp [registerAll, Dict.get?] at h
      · rintro ⟨⟨pre, r, post, heq, -⟩, -⟩
        simp at heq
  | append_singleton h r ih =>
      have hnone := registerAll_none h n
      rw [registerAll_append, get?_register, lastExt_append, lastClass_append, lastClass_append]
      by_cases hr : r.name = n
      · rw [if_pos hr]
        cases hg : (registerAll h).get? n with
        | none =>
            have hno := hnone.1 hg
            have hc : ∀ b c, LastClass h b n c ↔ c = none := by
              intro b c
              cases c with
              | none => simp only [iff_true]; intro x hx; exact fun hh => hno x hx hh.1
              | some c =>
                  constructor
                  · rintro ⟨pre, x, post, rfl, hx, -⟩
                    exact absurd hx (hno x (by simp))
                  · simp
            simp only [hr, hc, true_and, ne_eq, not_true_eq_false, false_and, or_false]
            cases hb : r.isReader <;> obtain ⟨fr, fw, fe⟩ := f <;>
              simp [eq_comm] <;> tauto
        | some g =>
            obtain ⟨-, i2, i3⟩ := (ih g).1 hg
            have uniq : ∀ b (c c' : Option C), LastClass h b n c → LastClass h b n c' → c = c' := by
              intro b c c' h1 h2
              by_cases hb : b = true
              · subst hb
                have e1 := (ih ⟨c, g.writer, g.ext⟩).2 ⟨((ih g).1 hg).1, h1, i3⟩
                have e2 := (ih ⟨c', g.writer, g.ext⟩).2 ⟨((ih g).1 hg).1, h2, i3⟩
                rw [e1] at e2; simpa using e2
              · simp only [Bool.not_eq_true] at hb
                subst hb
                have e1 := (ih ⟨g.reader, c, g.ext⟩).2 ⟨((ih g).1 hg).1, i2, h1⟩
                have e2 := (ih ⟨g.reader, c', g.ext⟩).2 ⟨((ih g).1 hg).1, i2, h2⟩
                rw [e1] at e2; simpa using e2
            have c2 : ∀ c, LastClass h true n c ↔ c = g.reader :=
              fun c => ⟨fun h => uniq _ _ _ h i2, fun h => h ▸ i2⟩
            have c3 : ∀ c, LastClass h false n c ↔ c = g.writer :=
              fun c => ⟨fun h => uniq _ _ _ h i3, fun h => h ▸ i3⟩
            simp only [hr, c2, c3, true_and, ne_eq, not_true_eq_false, false_and, or_false]
            cases hb : r.isReader <;> obtain ⟨fr, fw, fe⟩ := f <;>
              simp [eq_comm] <;> tauto
      · rw [if_neg hr, ih]
        simp [hr]

theorem lastExt_iff (h : List (Registration C)) (n : String) (e : Name) :
    LastExt h n e ↔ ∃ f, (registerAll h).get? n = some f ∧ f.ext = e := by
  constructor
  · intro hl
    cases hg : (registerAll h).get? n with
    | some f =>
        refine ⟨f, rfl, ?_⟩
        obtain ⟨h1, h2, h3⟩ := (get?_registerAll h n f).1 hg
        have := (get?_registerAll h n ⟨f.reader, f.writer, e⟩).2 ⟨hl, h2, h3⟩
        rw [hg] at this
        have := Option.some.inj this
        rw [this]
    | none =>
        obtain ⟨pre, r, post, rfl, hn, -⟩ := hl
        exact absurd hn ((registerAll_none _ n).1 hg r (by simp))
  · rintro ⟨f, hf, rfl⟩
    exact ((get?_registerAll h n f).1 hf).1

/-- A list with an element `f` and no other element, without duplicates. -/
theorem eq_singleton_of {α : Type} {l : List α} (hd : l.Nodup) (f : α) (h : ∀ g, g ∈ l ↔ g = f) :
    l = [f] := by
  match l, hd, h with
  | [], _, h => exact absurd ((h f).2 rfl) (by simp)
  | [a], _, h => rw [(h a).1 (by simp)]
  | a :: b :: t, hd, h =>
      have ha := (h a).1 (by simp)
      have hb := (h b).1 (by simp)
      rw [ha, hb] at hd
      simp at hd

/-- Names of the formats found by the extension. -/
theorem mem_candidates (h : List (Registration C)) (e : Name) (g : String) :
    g ∈ ((registerAll h).filter fun p => decide (p.2.ext = e)).map (·.1) ↔ LastExt h g e := by
  rw [lastExt_iff]
  simp only [List.mem_map, List.mem_filter, decide_eq_true_eq]
  constructor
  · rintro ⟨⟨k, f⟩, ⟨hm, he⟩, rfl⟩
    exact ⟨f, Dict.get?_of_mem (nodup_registerAll h) hm, he⟩
  · rintro ⟨f, hf, he⟩
    exact ⟨(g, f), ⟨Dict.mem_of_get? hf, he⟩, rfl⟩

theorem nodup_candidates (h : List (Registration C)) (e : Name) :
    (((registerAll h).filter fun p => decide (p.2.ext = e)).map (·.1)).Nodup :=
  (nodup_registerAll h).sublist (List.filter_sublist.map _)

end Cfd
