import Mathlib.Analysis.SpecialFunctions.Log.Basic
import Mathlib.LinearAlgebra.Matrix.Trace
import Mathlib.Order.WithBot
import Verif.Model.ElementAssembly
/-! # Model of `fenris-solid`: hyperelastic materials

`fenris-solid/src/{lib,logdet,materials,gravity_source}.rs`. Scalars are real numbers where logarithms occur
and elements of a field elsewhere; rounding is not modelled. `OMatrix<T, D, D>` is a Mathlib matrix. -/
set_option autoImplicit false

namespace Fenris
namespace Solid

open Matrix

section field

variable {K : Type} [Field K] {d : Nat}

/-- fenris-solid/src/materials.rs:9-12 `LameParameters`. -/
structure Lame (K : Type) where
  mu : K
  lambda : K

/-- materials.rs:14-23 `LameParameters::default`. -/
def Lame.default : Lame K := ⟨0, 0⟩

/-- materials.rs:26-29 `YoungPoisson`. -/
structure YoungPoisson (K : Type) where
  young : K
  poisson : K

/-- materials.rs:31-43 `From<YoungPoisson> for LameParameters`. -/
def Lame.fromYoungPoisson (p : YoungPoisson K) : Lame K :=
  let mu := 1 / 2 * p.young / (1 + p.poisson)
  let lambda := 2 * mu * p.poisson / (1 - 2 * p.poisson)
  ⟨mu, lambda⟩

/-- fenris-solid/src/lib.rs:18-29 `deformation_gradient`. -/
def deformationGradient (uGrad : Matrix (Fin d) (Fin d) K) : Matrix (Fin d) (Fin d) K := 1 + uGradᵀ

/-- lib.rs:31-41 `u_grad_from_F`. -/
def uGradFromF (F : Matrix (Fin d) (Fin d) K) : Matrix (Fin d) (Fin d) K := (F - 1)ᵀ

/-- `OMatrix::dot` of `nalgebra`: the sum of the products of the entries. -/
def dot (A B : Matrix (Fin d) (Fin d) K) : K := ∑ i, ∑ j, A i j * B i j

/-- `symmetric_part` of `nalgebra`. -/
def symmetricPart (A : Matrix (Fin d) (Fin d) K) : Matrix (Fin d) (Fin d) K := (1 / 2 : K) • (A + Aᵀ)

/-- materials.rs:70-79 `infinitesimal_strain_tensor`. -/
def infinitesimalStrain (F : Matrix (Fin d) (Fin d) K) : Matrix (Fin d) (Fin d) K := symmetricPart F - 1

/-- materials.rs:91-95 `compute_energy_density` of `LinearElasticMaterial`. -/
def leEnergy (F : Matrix (Fin d) (Fin d) K) (p : Lame K) : K :=
  let eps := infinitesimalStrain F
  p.mu * dot eps eps + 1 / 2 * p.lambda * eps.trace ^ 2

/-- materials.rs:97-106 `compute_stress_tensor` of `LinearElasticMaterial`. -/
def leStress (F : Matrix (Fin d) (Fin d) K) (p : Lame K) : Matrix (Fin d) (Fin d) K :=
  let eps := infinitesimalStrain F
  p.mu • (2 : K) • eps + Matrix.diagonal fun _ => p.lambda * eps.trace

/-- materials.rs:108-123 `compute_stress_contraction` of `LinearElasticMaterial`. -/
def leContraction (_F : Matrix (Fin d) (Fin d) K) (a b : Point d K) (p : Lame K) : Matrix (Fin d) (Fin d) K :=
  p.mu • ((a ⬝ᵥ b) • (1 : Matrix (Fin d) (Fin d) K) + vecMulVec b a) + p.lambda • vecMulVec a b

/-- materials.rs:377-388 `green_strain_tensor`. -/
def greenStrain (F : Matrix (Fin d) (Fin d) K) : Matrix (Fin d) (Fin d) K := (1 / 2 : K) • (Fᵀ * F - 1)

/-- materials.rs:400-404 `compute_energy_density` of `StVKMaterial`. -/
def stvkEnergy (F : Matrix (Fin d) (Fin d) K) (p : Lame K) : K :=
  let E := greenStrain F
  p.mu * dot E E + 1 / 2 * p.lambda * E.trace ^ 2

/-- materials.rs:406-415 `compute_stress_tensor` of `StVKMaterial`. -/
def stvkStress (F : Matrix (Fin d) (Fin d) K) (p : Lame K) : Matrix (Fin d) (Fin d) K :=
  let E := greenStrain F
  p.mu • (2 : K) • (F * E) + E.trace • p.lambda • F

/-- materials.rs:417-438 `compute_stress_contraction` of `StVKMaterial`. -/
def stvkContraction (F : Matrix (Fin d) (Fin d) K) (a b : Point d K) (p : Lame K) : Matrix (Fin d) (Fin d) K :=
  let E := greenStrain F
  let Fa := F *ᵥ a
  let Fb := F *ᵥ b
  let Eb := E *ᵥ b
  (2 * p.mu * (a ⬝ᵥ Eb) + p.lambda * E.trace * (a ⬝ᵥ b)) • (1 : Matrix (Fin d) (Fin d) K)
    + p.mu • vecMulVec Fb Fa
    + p.lambda • vecMulVec Fa Fb
    + (a ⬝ᵥ b) • p.mu • (F * Fᵀ)

/-- materials.rs:456-468: the closure of the batched contraction of `StVKMaterial`; `E`, its trace and `F Fᵀ`
are computed once. -/
def stvkBatchKernel (F E FFt : Matrix (Fin d) (Fin d) K) (Etrace : K) (p : Lame K) (a b : Point d K) :
    Matrix (Fin d) (Fin d) K :=
  (2 * p.mu * (a ⬝ᵥ (E *ᵥ b)) + p.lambda * Etrace * (a ⬝ᵥ b)) • (1 : Matrix (Fin d) (Fin d) K)
    + vecMulVec (F *ᵥ b) (p.mu • (F *ᵥ a))
    + vecMulVec (F *ᵥ a) (p.lambda • (F *ᵥ b))
    + (p.mu * (a ⬝ᵥ b)) • FFt

/-- materials.rs:306-311 and 344-349: the contraction of `NeoHookeanMaterial` once `F^{-T}` and `alpha` are
known. -/
def nhKernel (FinvT : Matrix (Fin d) (Fin d) K) (alpha : K) (p : Lame K) (a b : Point d K) :
    Matrix (Fin d) (Fin d) K :=
  vecMulVec (FinvT *ᵥ a) (p.lambda • (FinvT *ᵥ b)) - vecMulVec (FinvT *ᵥ b) (alpha • (FinvT *ᵥ a))
    + (p.mu * (a ⬝ᵥ b)) • (1 : Matrix (Fin d) (Fin d) K)

/-- fenris-solid/src/gravity_source.rs:57-66 `GravitySource::evaluate`. -/
def gravityEvaluate (acceleration : Point d K) (_coords : Point d K) (density : K) : Point d K :=
  density • acceleration

end field

/-! ### Logarithm of the determinant -/

/-- logdet.rs:35-53 `log_det_F_2d`. -/
noncomputable def logDetF2 (u : Matrix (Fin 2) (Fin 2) ℝ) : Option ℝ :=
  let u11 := u 0 0
  let u22 := u 1 1
  let b := u 0 1
  let c := u 1 0
  let gamma := u11 * u22 + u11 + u22 - b * c
  if gamma > -1 then some (Real.log (1 + gamma)) else none

/-- logdet.rs:55-87 `log_det_F_3d`. -/
noncomputable def logDetF3 (u : Matrix (Fin 3) (Fin 3) ℝ) : Option ℝ :=
  let u11 := u 0 0
  let u22 := u 1 1
  let u33 := u 2 2
  let a := 1 + u11
  let e := 1 + u22
  let i := 1 + u33
  let b := u 0 1
  let c := u 0 2
  let d := u 1 0
  let f := u 1 2
  let g := u 2 0
  let h := u 2 1
  let gamma := u11 * u22 * u33 + u11 * u22 + u11 * u33 + u22 * u33 + u11 + u22 + u33 + b * f * g + c * d * h
    - c * e * g - b * d * i - a * f * h
  if gamma > -1 then some (Real.log (1 + gamma)) else none

/-- logdet.rs:17-33 `log_det_F`. `D` is one of 1, 2, 3 (lib.rs:526-530 `PhysicalDim`); the other dimensions
cannot be instantiated. -/
noncomputable def logDetF : (d : Nat) → Matrix (Fin d) (Fin d) ℝ → Option ℝ
  | 1, u => if u 0 0 > 0 then some (Real.log (u 0 0)) else none
  | 2, u => logDetF2 u
  | 3, u => logDetF3 u
  | _, _ => none

/-! ### Materials -/

/-- A result of matrix type: a panic, the matrix filled with `NaN`, or a matrix of numbers. -/
inductive Out (α : Type) where
  | panic
  | nan
  | val (a : α)

/-- The value, if it is a number. -/
def Out.get? {α : Type} : Out α → Option α
  | .val a => some a
  | _ => none

/-- An entry of an output matrix: a number or `NaN` (`none`). -/
abbrev Num := Option ℝ

/-- `c += alpha * y`. -/
noncomputable def mulAdd (alpha : ℝ) (c y : Num) : Num := c.bind fun c => y.map fun y => c + alpha * y

/-- `c_IJ.zip_apply(contraction, |c, y| *c += alpha * y)` for the block at `(r, s)` (lib.rs:386-389). -/
noncomputable def addBlock {d : Nat} (out : Nat → Nat → Num) (r s : Nat) (alpha : ℝ)
    (m : Fin d → Fin d → Num) : Nat → Nat → Num := fun i j =>
  if h : (r ≤ i ∧ i < r + d) ∧ (s ≤ j ∧ j < s + d) then
    mulAdd alpha (out i j) (m ⟨i - r, by omega⟩ ⟨j - s, by omega⟩)
  else out i j

/-- `a.rows_generic(d * I, D)`. -/
def rowsGeneric (d : Nat) (a : List ℝ) (I : Nat) : Point d ℝ := fun k => a.getD (d * I + k) 0

/-- The entries of a contraction; `none` for a panic. -/
def Out.entries {d : Nat} : Out (Matrix (Fin d) (Fin d) ℝ) → Option (Fin d → Fin d → Num)
  | .panic => none
  | .nan => some fun _ _ => none
  | .val m => some fun i j => some (m i j)

/-- The inner loop of lib.rs:383-390 over the block rows `I`. -/
noncomputable def batchInner {d : Nat} (alpha : ℝ) (a b : List ℝ)
    (contraction : Point d ℝ → Point d ℝ → Out (Matrix (Fin d) (Fin d) ℝ)) (J : Nat) :
    List Nat → (Nat → Nat → Num) → Option (Nat → Nat → Num)
  | [], out => some out
  | I :: Is, out =>
    (contraction (rowsGeneric d a I) (rowsGeneric d b J)).entries.bind fun m =>
      batchInner alpha a b contraction J Is (addBlock out (d * I) (d * J) alpha m)

/-- The outer loop of lib.rs:381-391 over the block columns `J`. -/
noncomputable def batchOuter {d : Nat} (alpha : ℝ) (a b : List ℝ)
    (contraction : Point d ℝ → Point d ℝ → Out (Matrix (Fin d) (Fin d) ℝ)) (M : Nat) :
    List Nat → (Nat → Nat → Num) → Option (Nat → Nat → Num)
  | [], out => some out
  | J :: Js, out =>
    (batchInner alpha a b contraction J (List.range (min (J + 1) M)) out).bind fun out =>
      batchOuter alpha a b contraction M Js out

/-- lib.rs:349-392 `compute_batch_contraction`. A zero dimension panics in the remainder operation. -/
noncomputable def computeBatchContraction {d : Nat} (nrows ncols : Nat) (out : Nat → Nat → Num) (alpha : ℝ)
    (a b : List ℝ) (contraction : Point d ℝ → Point d ℝ → Out (Matrix (Fin d) (Fin d) ℝ)) :
    Option (Nat → Nat → Num) :=
  if d ≠ 0 ∧ a.length % d = 0 ∧ b.length % d = 0 ∧ nrows = d * (a.length / d) ∧ ncols = d * (b.length / d) then
    batchOuter alpha a b contraction (a.length / d) (List.range (b.length / d)) out
  else none

/-- lib.rs:59-236 `HyperelasticMaterial`: the methods that a material may implement itself. The energy is a
number or infinity. `batch` is `accumulate_stress_contractions_into`; its arguments are the numbers of rows
and columns and the contents of the output, `alpha`, `F`, `a`, `b` and the parameters. -/
structure Material (d : Nat) where
  energy : Matrix (Fin d) (Fin d) ℝ → Lame ℝ → WithTop ℝ
  energyDu : Matrix (Fin d) (Fin d) ℝ → Lame ℝ → WithTop ℝ
  stress : Matrix (Fin d) (Fin d) ℝ → Lame ℝ → Out (Matrix (Fin d) (Fin d) ℝ)
  contraction : Matrix (Fin d) (Fin d) ℝ → Point d ℝ → Point d ℝ → Lame ℝ → Out (Matrix (Fin d) (Fin d) ℝ)
  batch : Nat → Nat → (Nat → Nat → Num) → ℝ → Matrix (Fin d) (Fin d) ℝ → List ℝ → List ℝ → Lame ℝ →
    Option (Nat → Nat → Num)

variable {d : Nat}

/-- lib.rs:98-104 `compute_stress_tensor_du` (no material overrides it). -/
noncomputable def Material.stressDu (m : Material d) (uGrad : Matrix (Fin d) (Fin d) ℝ) (p : Lame ℝ) :
    Out (Matrix (Fin d) (Fin d) ℝ) := m.stress (deformationGradient uGrad) p

/-- lib.rs:127-135 `compute_stress_contraction_du` (no material overrides it). -/
noncomputable def Material.contractionDu (m : Material d) (uGrad : Matrix (Fin d) (Fin d) ℝ) (a b : Point d ℝ) (p : Lame ℝ) :
    Out (Matrix (Fin d) (Fin d) ℝ) := m.contraction (deformationGradient uGrad) a b p

/-- lib.rs:224-236 `accumulate_stress_contractions_du_into` (no material overrides it). -/
noncomputable def Material.batchDu (m : Material d) (nrows ncols : Nat) (out : Nat → Nat → Num) (alpha : ℝ)
    (uGrad : Matrix (Fin d) (Fin d) ℝ) (a b : List ℝ) (p : Lame ℝ) : Option (Nat → Nat → Num) :=
  computeBatchContraction nrows ncols out alpha a b fun a b => m.contractionDu uGrad a b p

/-- materials.rs:81-124 `LinearElasticMaterial`: energy, stress and contraction; the default
`compute_energy_density_du` (lib.rs:78-84) and `accumulate_stress_contractions_into` (lib.rs:203-215). -/
noncomputable def linearElastic (d : Nat) : Material d where
  energy F p := ((leEnergy F p : ℝ) : WithTop ℝ)
  energyDu u p := ((leEnergy (deformationGradient u) p : ℝ) : WithTop ℝ)
  stress F p := .val (leStress F p)
  contraction F a b p := .val (leContraction F a b p)
  batch nrows ncols out alpha F a b p :=
    computeBatchContraction nrows ncols out alpha a b fun a b => .val (leContraction F a b p)

/-- materials.rs:390-471 `StVKMaterial`, with its own batched contraction (440-470). -/
noncomputable def stvk (d : Nat) : Material d where
  energy F p := ((stvkEnergy F p : ℝ) : WithTop ℝ)
  energyDu u p := ((stvkEnergy (deformationGradient u) p : ℝ) : WithTop ℝ)
  stress F p := .val (stvkStress F p)
  contraction F a b p := .val (stvkContraction F a b p)
  batch nrows ncols out alpha F a b p :=
    let E := greenStrain F
    computeBatchContraction nrows ncols out alpha a b fun a b =>
      .val (stvkBatchKernel F E (F * Fᵀ) E.trace p a b)

/-- materials.rs:249-262 `compute_energy_density_du` of `NeoHookeanMaterial`. -/
noncomputable def nhEnergyDu (uGrad : Matrix (Fin d) (Fin d) ℝ) (p : Lame ℝ) : WithTop ℝ :=
  let dudX := uGradᵀ
  match logDetF d dudX with
  | some logJ =>
    let trE := dudX.trace + 1 / 2 * dot dudX dudX
    ((p.mu * trE - p.mu * logJ + 1 / 2 * p.lambda * logJ ^ 2 : ℝ) : WithTop ℝ)
  | none => ⊤

/-- materials.rs:264-285 `compute_stress_tensor` of `NeoHookeanMaterial`. -/
noncomputable def nhStress (F : Matrix (Fin d) (Fin d) ℝ) (p : Lame ℝ) : Out (Matrix (Fin d) (Fin d) ℝ) :=
  let J := F.det
  if J ≤ 0 then .nan
  else
    let logJ := Real.log J
    match Local.tryInverse F with
    | none => .panic
    | some Finv => .val ((-p.mu + p.lambda * logJ) • Finvᵀ + p.mu • F)

/-- materials.rs:287-315 `compute_stress_contraction` of `NeoHookeanMaterial`. -/
noncomputable def nhContraction (F : Matrix (Fin d) (Fin d) ℝ) (a b : Point d ℝ) (p : Lame ℝ) :
    Out (Matrix (Fin d) (Fin d) ℝ) :=
  let J := F.det
  if J ≤ 0 then .nan
  else
    let logJ := Real.log J
    match Local.tryInverse F with
    | none => .panic
    | some Finv => .val (nhKernel Finvᵀ (-p.mu + p.lambda * logJ) p a b)

/-- materials.rs:317-353 `accumulate_stress_contractions_into` of `NeoHookeanMaterial`; `todo!` is a panic. -/
noncomputable def nhBatch (nrows ncols : Nat) (out : Nat → Nat → Num) (alpha : ℝ) (F : Matrix (Fin d) (Fin d) ℝ)
    (a b : List ℝ) (p : Lame ℝ) : Option (Nat → Nat → Num) :=
  let J := F.det
  if J ≤ 0 then none
  else
    let logJ := Real.log J
    match Local.tryInverse F with
    | none => none
    | some Finv =>
      computeBatchContraction nrows ncols out alpha a b fun a b =>
        .val (nhKernel Finvᵀ (-p.mu + p.lambda * logJ) p a b)

/-- materials.rs:234-354 `NeoHookeanMaterial`; `compute_energy_density` (244-247) goes through the displacement
gradient. -/
noncomputable def neoHookean (d : Nat) : Material d where
  energy F p := nhEnergyDu (uGradFromF F) p
  energyDu := nhEnergyDu
  stress := nhStress
  contraction := nhContraction
  batch := nhBatch

/-! ### The elliptic operator of a material -/

/-- lib.rs:412-511 `MaterialEllipticOperator` for a material all of whose results are numbers (`energy`,
`stress`, `contraction` are functions of the deformation gradient, as the defaults make of `_du`):
`compute_energy`, `compute_elliptic_operator` (the transposed stress), `contract`, `symmetry`.
`accumulate_contractions_into` is `batchDu` (see `C57_operator_batch`). -/
noncomputable def materialOperator (energy : Matrix (Fin d) (Fin d) ℝ → Lame ℝ → ℝ)
    (stress : Matrix (Fin d) (Fin d) ℝ → Lame ℝ → Matrix (Fin d) (Fin d) ℝ)
    (contraction : Matrix (Fin d) (Fin d) ℝ → Point d ℝ → Point d ℝ → Lame ℝ → Matrix (Fin d) (Fin d) ℝ) :
    Local.Operator d d ℝ (Lame ℝ) where
  energy u p := energy (deformationGradient u) p
  op u p := (stress (deformationGradient u) p)ᵀ
  contract u a b p := contraction (deformationGradient u) a b p
  symmetric := true

/-- `MaterialEllipticOperator` of the linear elastic material. -/
noncomputable def leOperator (d : Nat) : Local.Operator d d ℝ (Lame ℝ) :=
  materialOperator leEnergy leStress leContraction

/-- `MaterialEllipticOperator` of the St. Venant-Kirchhoff material. -/
noncomputable def stvkOperator (d : Nat) : Local.Operator d d ℝ (Lame ℝ) :=
  materialOperator stvkEnergy stvkStress stvkContraction

end Solid
end Fenris
