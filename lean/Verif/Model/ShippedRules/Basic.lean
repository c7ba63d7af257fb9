import Verif.Model.Polyquad
import Verif.Model.Quadrature
/-! # The shipped quadrature rules: files in fenris-quadrature/rules/polyquad/expanded -/
set_option autoImplicit false

namespace Fenris.ShippedRules
variable (K : Type) [Field K]

/-- A rule file: strength and size from its name, and its lines. Every number of a row is an integer in units of `10^-decimals`, the exact
value of the decimal number in the file; the conversion to `f64` is not modelled. -/
structure RuleFile where
  strength : Nat
  size : Nat
  decimals : Nat
  rows : List (List Int)

/-- The number `n * 10^-decimals`. -/
def RuleFile.number (f : RuleFile) (n : Int) : K := (n : K) / (10 : K) ^ f.decimals

/-- The rule that polyquad-parse/src/lib.rs:104-140 reads from the file: the last number of a row is the weight, the others are the
coordinates (C44 is about the text). -/
def RuleFile.rule (f : RuleFile) : Polyquad.Rule K :=
  ⟨f.rows.map fun row => row.dropLast.map (f.number K), f.rows.map fun row => f.number K (row.getLastD 0)⟩

/-- The arms of the code generated for a domain (build.rs:172-196): one for each file, in the order of the strengths. -/
def arms (files : List RuleFile) : List (Nat × Polyquad.Rule K) := files.map fun f => (f.strength, f.rule K)

/-- The generated code. -/
def table (files : List RuleFile) : Polyquad.Table K := ⟨arms K files, (Polyquad.maxStrength (arms K files)).getD 0⟩

/-- The weights and points of the generated functions (build.rs:145-170): points are arrays with `d` entries. -/
def fixedRule (d : Nat) (r : Polyquad.Rule K) : Quadrature.Rule d K := (r.weights, r.points.map fun p => fun i : Fin d => p.getD i 0)

/-- fenris-quadrature/src/polyquad.rs:28-95: the rule selected for a strength; `none` is `NoRuleAvailable`. -/
def select (d : Nat) (files : List RuleFile) (strength : Nat) : Option (Quadrature.Rule d K) :=
  (Polyquad.selectMinimum (table K files) strength).map (fixedRule K d)

end Fenris.ShippedRules
