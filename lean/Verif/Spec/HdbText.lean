import Verif.Model.HdbText

/-
The format of HDB files, as relations between the content of a file and its text.  Only the types `Item`,
`MatrixSection`... of the content are shared with the model.
-/

namespace Xdyn.Hdb.Format

/-- Spaces and tabulations, possibly none. -/
def Blanks (s : List Char) : Prop := ∀ c ∈ s, c = ' ' ∨ c = '\t'

/-- The end of a line. -/
def EndOfLine (s : List Char) : Prop := ∃ b, Blanks b ∧ (s = b ++ ['\n'] ∨ s = b ++ ['\r', '\n'])

/-- Nothing or an empty line. -/
def MaybeEmptyLine (s : List Char) : Prop := s = [] ∨ EndOfLine s

def Letter (c : Char) : Prop := c = '_' ∨ c.isAlpha = true
def WordChar (c : Char) : Prop := c = '-' ∨ c = '_' ∨ c = '+' ∨ c.isAlphanum = true

/-- The words after the first one, each after at least one space. -/
inductive Words : List Char → Prop where
  | nil : Words []
  | cons {sp w s : List Char} : sp ≠ [] → (∀ c ∈ sp, c = ' ') → w ≠ [] → (∀ c ∈ w, WordChar c) → Words s → Words (sp ++ (w ++ s))

/-- Names: a letter, other characters (at least one), and maybe other words. -/
def Name (s : List Char) : Prop := ∃ c w r, s = c :: (w ++ r) ∧ Letter c ∧ w ≠ [] ∧ (∀ d ∈ w, WordChar d) ∧ Words r

/-- `[name]` -/
def Header (h : String) (s : List Char) : Prop :=
  ∃ b0 b1 b2, Blanks b0 ∧ Blanks b1 ∧ Blanks b2 ∧ Name h.toList ∧ s = b0 ++ '[' :: (b1 ++ (h.toList ++ (b2 ++ [']'])))

/-- How numbers are written, and what the reader of numbers does with them. -/
structure Numbers (K : Type) where
  /-- the reader of numbers: a number and the rest of the text, if the text begins with a number -/
  num : List Char → Option (K × List Char)
  /-- the texts that are meant to be the number -/
  Writes : K → List Char → Prop
  /-- a number begins with a digit, a sign or a decimal point -/
  first : ∀ x t, Writes x t → ∃ c r, t = c :: r ∧ (c.isDigit = true ∨ c = '+' ∨ c = '-' ∨ c = '.')
  /-- a number is read when a blank, the end of the line or the end of the text follows -/
  reads : ∀ x t r, Writes x t → (r = [] ∨ ∃ c r', r = c :: r' ∧ (c = ' ' ∨ c = '\t' ∨ c = '\n' ∨ c = '\r')) → num (t ++ r) = some (x, r)
  /-- the end of a line, the end of the text and a bracket are not numbers -/
  empty : num [] = none
  fails : ∀ c r, (c = '\n' ∨ c = '\r' ∨ c = '[') → num (c :: r) = none

variable {K : Type} (N : Numbers K)

/-- A number after blanks -/
def IsNum (x : K) (s : List Char) : Prop := ∃ b t, Blanks b ∧ N.Writes x t ∧ s = b ++ t

/-- A number after blanks, at least one. -/
def NextNum (x : K) (s : List Char) : Prop := ∃ b t, Blanks b ∧ b ≠ [] ∧ N.Writes x t ∧ s = b ++ t

/-- A line with one number -/
def NumLine (x : K) (s : List Char) : Prop := ∃ s1 s2, IsNum N x s1 ∧ EndOfLine s2 ∧ s = s1 ++ s2

/-- A line with several numbers. -/
def RowLine (l : List K) (s : List Char) : Prop :=
  ∃ x y r s1 ss e, l = x :: y :: r ∧ IsNum N x s1 ∧ List.Forall₂ (NextNum N) (y :: r) ss ∧ EndOfLine e ∧ s = s1 ++ (ss.flatten ++ e)

/-- The elements of a list, one after the other. -/
def Several {α : Type} (P : α → List Char → Prop) (l : List α) (s : List Char) : Prop :=
  l ≠ [] ∧ ∃ ss, List.Forall₂ P l ss ∧ s = ss.flatten

/-- A section with a matrix -/
def IsMatrix (m : MatrixSection K) (s : List Char) : Prop :=
  ∃ s1 e s2 e', Header m.header s1 ∧ EndOfLine e ∧ Several (RowLine N) m.values s2 ∧ MaybeEmptyLine e' ∧ s = s1 ++ (e ++ (s2 ++ e'))

/-- A matrix for a given value of a parameter (the incidence) -/
def IsSectionWithId (m : SectionWithId K) (s : List Char) : Prop :=
  ∃ s1 x e s2, Header m.header s1 ∧ IsNum N m.id x ∧ EndOfLine e ∧ Several (RowLine N) m.values s2 ∧ s = s1 ++ (x ++ (e ++ s2))

/-- One element of the file. -/
inductive IsItem : Item K → List Char → Prop where
  | stringKey {h v : String} {s1 b e} : Header h s1 → Blanks b → Name v.toList → (∀ r, N.num (v.toList ++ r) = none) → EndOfLine e →
      IsItem (.stringKey h v) (s1 ++ (b ++ (v.toList ++ e)))
  | valueKey {h : String} {x : K} {s1 s2 e} : Header h s1 → IsNum N x s2 → EndOfLine e → IsItem (.valueKey h x) (s1 ++ (s2 ++ e))
  | vector {h : String} {l : List K} {s1 e s2 e'} : Header h s1 → EndOfLine e → Several (NumLine N) l s2 → MaybeEmptyLine e' →
      IsItem (.vector h l) (s1 ++ (e ++ (s2 ++ e')))
  | matrix {m : MatrixSection K} {s} : IsMatrix N m s → IsItem (.matrix m) s
  | list {l : ListOfMatrixSections K} {s1 e s2} : Header l.header s1 → EndOfLine e → Several (IsMatrix N) l.sections s2 →
      IsItem (.list l) (s1 ++ (e ++ s2))
  | listWithId {l : ListOfMatrixSectionsWithId K} {s1 e s2} : Header l.header s1 → EndOfLine e → Several (IsSectionWithId N) l.sections s2 →
      IsItem (.listWithId l) (s1 ++ (e ++ s2))

def Item.isMatrix : Item K → Prop
  | .matrix _ => True
  | _ => False

def Item.isList : Item K → Prop
  | .list _ => True
  | _ => False

/-- A file: elements one after the other.  As nothing marks the end of a list of matrices, a matrix that follows a list
belongs to it: a file that contains a list followed by a matrix outside the list does not exist. -/
inductive IsFile : List (Item K) → List Char → Prop where
  | nil : IsFile [] []
  | cons {i : Item K} {l : List (Item K)} {s1 s2} : IsItem N i s1 → IsFile l s2 →
      (∀ j l', l = j :: l' → ¬ (Item.isList i ∧ Item.isMatrix j)) → IsFile (i :: l) (s1 ++ s2)

end Xdyn.Hdb.Format
