import Verif.Model.Sort
/-! # Model of the quadrature rule files

`polyquad-parse/src/lib.rs` (the parser) and `fenris-quadrature/build.rs` (the build script that
turns a directory of rule files into the functions behind `fenris-quadrature/src/polyquad.rs`).

Texts are lists of characters.  The number parsers of the standard library
(`str::parse::<f64>`, `str::parse::<usize>`) are parameters; the theorems hold for every parser. -/
set_option autoImplicit false

namespace Fenris.Polyquad
variable {K : Type}

/-- ASCII white space as in `char::is_ascii_whitespace` (space, tab, line feed, form feed, carriage
return), which is what `split_ascii_whitespace` (lib.rs:79) separates at. -/
def isSpace (c : Char) : Bool :=
  c == ' ' || c == '\t' || c == '\n' || c == '\x0C' || c == '\r'

/-- Put a character in front of the first piece. -/
def consFirst (c : Char) : List (List Char) → List (List Char)
  | [] => [[c]]
  | p :: ps => (c :: p) :: ps

/-- Pieces of a text between the characters satisfying `sep` (always at least one piece);
`str::split`, used at build.rs:45. -/
def pieces (sep : Char → Bool) : List Char → List (List Char)
  | [] => [[]]
  | c :: cs => if sep c then [] :: pieces sep cs else consFirst c (pieces sep cs)

/-- `split_ascii_whitespace` (lib.rs:79): the non-empty pieces between white space. -/
def words (line : List Char) : List (List Char) :=
  (pieces isSpace line).filter (fun w => !w.isEmpty)

/-- One carriage return is removed from the end of a line that ended in a line feed
(`str::lines`). -/
def stripCr (line : List Char) : List Char :=
  if line.getLast? = some '\r' then line.dropLast else line

/-- The lines of the pieces between line feeds: every piece but the last was followed by a line
feed; the last one is a line only when it is not empty. -/
def linesOfPieces : List (List Char) → List (List Char)
  | [] => []
  | [p] => if p.isEmpty then [] else [p]
  | p :: q :: ps => stripCr p :: linesOfPieces (q :: ps)

/-- `str::lines` (lib.rs:78). -/
def lines (data : List Char) : List (List Char) := linesOfPieces (pieces (· == '\n') data)

/-- `ParseError` (lib.rs:24-44).  Simplification: the formatted message is replaced by the data that
goes into it. -/
inductive ParseError where
  /-- `float_parse_error` (34-36) -/
  | float (entry : List Char) (label : String)
  /-- `unexpected_entries` (38-43) -/
  | entries (found expected : Nat)
  deriving DecidableEq

/-- The inner loop of `parse_helper` (lib.rs:85-89): every entry is parsed, `i` numbers them, the
first failure is returned. -/
def parseEntries (parse : List Char → Option K) (labels : List String) :
    Nat → List (List Char) → Except ParseError (List K)
  | _, [] => .ok []
  | i, w :: ws =>
    match parse w with
    | none => .error (.float w (labels.getD i "unlabeled entry"))
    | some x =>
      match parseEntries parse labels (i + 1) ws with
      | .error e => .error e
      | .ok xs => .ok (x :: xs)

/-- The outer loop of `parse_helper` (lib.rs:78-94) over the lines.  The closure `handler` is a state
transformer. -/
def parseLines {σ : Type} (parse : List Char → Option K) (labels : List String)
    (handler : σ → List K → Except ParseError σ) : σ → List (List Char) → Except ParseError σ
  | s, [] => .ok s
  | s, line :: rest =>
    if (words line).isEmpty then parseLines parse labels handler s rest
    else
      match parseEntries parse labels 0 (words line) with
      | .error e => .error e
      | .ok xs =>
        match handler s xs with
        | .error e => .error e
        | .ok s' => parseLines parse labels handler s' rest

/-- `Rule2d` / `Rule3d` (lib.rs:59-69); a point is the list of its coordinates. -/
structure Rule (K : Type) where
  points : List (List K)
  weights : List K
  deriving DecidableEq

/-- The closure of `parse2d` (lib.rs:109-116). -/
def handler2 (s : Rule K) : List K → Except ParseError (Rule K)
  | [x, y, w] => .ok ⟨s.points ++ [[x, y]], s.weights ++ [w]⟩
  | es => .error (.entries es.length 3)

/-- `parse2d` (lib.rs:104-119). -/
def parse2d (parse : List Char → Option K) (data : List Char) : Except ParseError (Rule K) :=
  parseLines parse ["x coordinate", "y coordinate", "weight"] handler2 ⟨[], []⟩ (lines data)

/-- The closure of `parse3d` (lib.rs:131-138). -/
def handler3 (s : Rule K) : List K → Except ParseError (Rule K)
  | [x, y, z, w] => .ok ⟨s.points ++ [[x, y, z]], s.weights ++ [w]⟩
  | es => .error (.entries es.length 4)

/-- `parse3d` (lib.rs:128-140). -/
def parse3d (parse : List Char → Option K) (data : List Char) : Except ParseError (Rule K) :=
  parseLines parse ["x coordinate", "y coordinate", "z coordinate", "weight"] handler3 ⟨[], []⟩
    (lines data)

/-! ## The build script -/

/-- `try_match_stem_to_strength_and_size` (build.rs:43-58). -/
def matchStem (parseNat : List Char → Option Nat) (stem : List Char) : Option (Nat × Nat) :=
  match pieces (· == '-') stem with
  | a :: b :: rest =>
    match parseNat a with
    | none => none
    | some strength =>
      match parseNat b with
      | none => none
      | some size => if rest.isEmpty then some (strength, size) else none
  | _ => none

/-- A regular file of the rule directory (build.rs:65-74).  Simplification: I/O errors (which abort
the build) and the file system are left out; a file is its stem, extension and content. -/
structure File where
  stem : List Char
  ext : Option String
  data : List Char

/-- `find_polyquad_rule_files_in_dir` (build.rs:60-90): `(strength, size, content)` of every matching
file; the others are ignored. -/
def findRuleFiles (parseNat : List Char → Option Nat) (dir : List File) :
    List (Nat × Nat × List Char) :=
  dir.filterMap fun f =>
    if f.ext = some "txt" then
      (matchStem parseNat f.stem).map fun p => (p.1, p.2, f.data)
    else none

/-- The body of the loop of `load_polyquad_rules` (build.rs:116-138); `none` = the build panics. -/
def loadRule (parser : List Char → Except ParseError (Rule K)) (f : Nat × Nat × List Char) :
    Option (Nat × Rule K) :=
  match parser f.2.2 with
  | .error _ => none
  | .ok r =>
    if f.2.1 = r.weights.length then
      if r.weights.length = r.points.length then some (f.1, r) else none
    else none

/-- `load_polyquad_rules` (build.rs:110-142), `sort_by_key` being a stable sort. -/
def loadRules (parser : List Char → Except ParseError (Rule K))
    (parseNat : List Char → Option Nat) (dir : List File) : Option (List (Nat × Rule K)) :=
  ((findRuleFiles parseNat dir).mapM (loadRule parser)).map
    (stableSort fun a b => decide (a.1 ≤ b.1))

/-- The largest strength, `rules.iter().map(strength).max()` (build.rs:173); `none` without rules. -/
def maxStrength : List (Nat × Rule K) → Option Nat
  | [] => none
  | r :: rs =>
    match maxStrength rs with
    | none => some r.1
    | some m => some (max r.1 m)

/-- The generated program: match arms in order and the largest strength
(build.rs:172-196). -/
structure Table (K : Type) where
  arms : List (Nat × Rule K)
  max : Nat

/-- `generate_polyquad_rules` (build.rs:144-222), up to the program text: `none` when the build
panics or the generated file does not compile.  It does not compile when two rules have the same
strength, because each rule becomes a function named after its strength (147, 164). -/
def generate (parser : List Char → Except ParseError (Rule K))
    (parseNat : List Char → Option Nat) (dir : List File) : Option (Table K) :=
  match loadRules parser parseNat dir with
  | none => none
  | some rules =>
    match maxStrength rules with
    | none => none
    | some m => if (rules.map Prod.fst).Nodup then some ⟨rules, m⟩ else none

/-- The generated `*_select_minimum` (build.rs:187-194), called by `triangle`, `quadrilateral`,
`tetrahedron`, … (fenris-quadrature/src/polyquad.rs:28-95): the first matching arm wins; `none` is
`Err(NoRuleAvailable)`. -/
def selectMinimum (t : Table K) (strength : Nat) : Option (Rule K) :=
  match t.arms.find? (fun arm => arm.1 == strength) with
  | some arm => some arm.2
  | none => if strength ≤ t.max then selectMinimum t (strength + 1) else none
termination_by t.max + 1 - strength

end Fenris.Polyquad
