import Verif.Model.Files

/-!
# Specification of file names
-/

namespace Cfd.Spec

/-- Components of a path as the operating system sees them: non-empty, without `/`, and not `.`. -/
def GoodPath (p : PyPath) : Prop := ∀ n ∈ p.parts, n ≠ [] ∧ n ≠ ['.'] ∧ '/' ∉ n

/-- `stem` and `suff` are the two parts of a file name: the suffix is the last dot and what follows it,
provided something precedes the dot and something follows it. -/
def NameParts (name stem suff : Name) : Prop :=
  name = stem ++ suff ∧
  ((suff = [] ∧ ¬ ∃ s e, s ≠ [] ∧ e ≠ [] ∧ '.' ∉ e ∧ name = s ++ '.' :: e) ∨
   (stem ≠ [] ∧ ∃ e, e ≠ [] ∧ '.' ∉ e ∧ suff = '.' :: e))

/-- The file called `n` in the folder. -/
def child (folder : PyPath) (n : Name) : PyPath := ⟨folder.root, folder.parts ++ [n]⟩

/-- The folder contains finitely many files. -/
def FiniteFolder (ex : PyPath → Bool) (folder : PyPath) : Prop :=
  ∃ names : List Name, ∀ n, ex (child folder n) = true → n ∈ names

/-- The decimal number `i` between parentheses. -/
def numberedName (stem suff : Name) (i : Nat) : Name := stem ++ ('(' :: Nat.toDigits 10 i ++ [')']) ++ suff

/-- The file name chosen: the original one when it is free, otherwise the first free one among
`stem(1)suff`, `stem(2)suff`, ... of the same folder. -/
def SafeName (ex : PyPath → Bool) (p : PyPath) (changed : Bool) (q : PyPath) : Prop :=
  ex q = false ∧
  ((changed = false ∧ q = p) ∨
   (changed = true ∧ ex p = true ∧ ∃ stem suff i, NameParts p.name stem suff ∧ 1 ≤ i ∧
      q = child p.parent (numberedName stem suff i) ∧
      ∀ j, 1 ≤ j → j < i → ex (child p.parent (numberedName stem suff j)) = true))

/-- `ext` is the extension of a file name: the last dot of the last component and what follows it, provided another character than
a dot precedes it in this component. -/
def HasExt (name root ext : Name) : Prop :=
  name = root ++ ext ∧ ∃ folder base e, root = folder ++ base ∧ (folder = [] ∨ folder.getLast? = some '/') ∧ '/' ∉ base ∧
    (∃ c ∈ base, c ≠ '.') ∧ ext = '.' :: e ∧ '.' ∉ e ∧ '/' ∉ e

/-- The name of the description beside the file `name`: the extension, if any, is replaced by `.xmf`. -/
def DescriptionName (name xmf : Name) : Prop :=
  (∃ root ext, HasExt name root ext ∧ xmf = root ++ ".xmf".toList) ∨
  ((¬ ∃ root ext, HasExt name root ext) ∧ xmf = name ++ ".xmf".toList)

/-- Different names in the folder are different files. -/
def NoLinks {Loc : Type} (s : Fs Loc) (folder : PyPath) : Prop :=
  ∀ n n', '/' ∉ n → '/' ∉ n' → s.resolve (child folder n).str = s.resolve (child folder n').str → n = n'

end Cfd.Spec
