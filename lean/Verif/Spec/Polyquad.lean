import Verif.Model.Polyquad
/-! # What a rule file says

Layout of a text: which non-blank tokens stand on which line.  Written without the splitting
functions of the model. -/
set_option autoImplicit false

namespace Fenris.Spec.Polyquad
open Fenris.Polyquad

/-- White space inside a line. -/
def Blank (c : Char) : Prop := c = ' ' ∨ c = '\t' ∨ c = '\x0C' ∨ c = '\r'

/-- A character that belongs to a token. -/
def Ink (c : Char) : Prop := ¬ Blank c ∧ c ≠ '\n'

/-- `line` consists of the tokens `ts` in order, separated (and possibly surrounded) by white
space. -/
inductive Line : List (List Char) → List Char → Prop where
  | blank (s : List Char) : (∀ c ∈ s, Blank c) → Line [] s
  | token (s w rest : List Char) (ts : List (List Char)) :
      (∀ c ∈ s, Blank c) → w ≠ [] → (∀ c ∈ w, Ink c) →
      (∀ c ∈ rest.head?, Blank c) → Line ts rest → Line (w :: ts) (s ++ w ++ rest)

/-- `text` consists of lines whose tokens are `tss`; the last line may lack its line feed. -/
inductive Text : List (List (List Char)) → List Char → Prop where
  | nil : Text [] []
  | last (line : List Char) (ts : List (List Char)) : line ≠ [] → Line ts line → Text [ts] line
  | line (line rest : List Char) (ts : List (List Char)) (tss : List (List (List Char))) :
      Line ts line → Text tss rest → Text (ts :: tss) (line ++ '\n' :: rest)

/-- A directory entry that is a rule file: `<strength>-<size>.txt`. -/
def RuleFile (parseNat : List Char → Option Nat) (f : File) (strength size : Nat) : Prop :=
  f.ext = some "txt" ∧ ∃ a b : List Char, f.stem = a ++ '-' :: b ∧ '-' ∉ a ∧ '-' ∉ b ∧
    parseNat a = some strength ∧ parseNat b = some size

end Fenris.Spec.Polyquad
