import Verif.Model.Assembly
/-! # How matrix files are read -/
set_option autoImplicit false

namespace Fenris.Dump.Spec
open Fenris.Assembly
variable {K : Type}

/-- The parts of a text between the separators. -/
def split (sep : Char) : List Char → List (List Char)
  | [] => [[]]
  | c :: cs => if c = sep then [] :: split sep cs else ((split sep cs).head?.getD [] |> (c :: ·)) :: (split sep cs).tail

/-- The lines of a text in which every line ends with a line feed. -/
def linesOf (text : List Char) : Option (List (List Char)) :=
  if (split '\n' text).getLast? = some [] then some (split '\n' text).dropLast else none

/-- A decimal number. -/
def readNat (w : List Char) : Option Nat := if w ≠ [] ∧ ∀ c ∈ w, c.isDigit then some (Nat.ofDigitChars 10 w 0) else none

/-- What a matrix market file in coordinate format says: numbers of rows and columns and the entries, with indices from zero. -/
structure Coordinates (K : Type) where
  nrows : Nat
  ncols : Nat
  entries : List (Nat × Nat × K)
deriving DecidableEq

/-- A line `row column value` with indices from one. -/
def readEntry (parse : List Char → Option K) (nrows ncols : Nat) (line : List Char) : Option (Nat × Nat × K) :=
  match split ' ' line with
  | [a, b, c] => (readNat a).bind fun i => (readNat b).bind fun j => (parse c).bind fun v =>
      if 1 ≤ i ∧ i ≤ nrows ∧ 1 ≤ j ∧ j ≤ ncols then some (i - 1, j - 1, v) else none
  | _ => none

/-- The format: a header, a line `rows columns entries`, and as many lines as there are entries. -/
def readMatrixMarket (parse : List Char → Option K) (text : List Char) : Option (Coordinates K) :=
  match linesOf text with
  | some (header :: dims :: rest) =>
    if header = "%%MatrixMarket matrix coordinate real general".toList then
      match split ' ' dims with
      | [a, b, c] => (readNat a).bind fun m => (readNat b).bind fun n => (readNat c).bind fun k =>
          if rest.length = k then (rest.mapM (readEntry parse m n)).map fun es => ⟨m, n, es⟩ else none
      | _ => none
    else none
  | _ => none

/-- A text with a line for each row and spaces between the entries. -/
def readDense (parse : List Char → Option K) (text : List Char) : Option (List (List K)) :=
  (linesOf text).bind fun ls => ls.mapM fun line => (split ' ' line).mapM parse

/-- What is written can be read, and has no space or line feed in it. -/
structure Readable (parse : List Char → Option K) (fmt : K → List Char) : Prop where
  parse : ∀ x, parse (fmt x) = some x
  space : ∀ x, ' ' ∉ fmt x
  newline : ∀ x, '\n' ∉ fmt x

/-- A sparse matrix as nalgebra-sparse admits it: as many values as columns in each row, columns in range. -/
def ValidCsr (A : Csr K) : Prop := ∀ row ∈ A.rows, row.1.length = row.2.length ∧ ∀ j ∈ row.1, j < A.ncols

/-- The matrix stores the value `v` at row `i`, column `j`. -/
def Stores (A : Csr K) (i j : Nat) (v : K) : Prop :=
  ∃ row, A.rows[i]? = some row ∧ ∃ k : Nat, row.1[k]? = some j ∧ row.2[k]? = some v

end Fenris.Dump.Spec
