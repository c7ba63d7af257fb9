import Verif.Spec.LinearProblem
import Verif.Model.Cg
import Verif.Model.CgWorkspace
/-! # Newton's method on an assembled linear problem (C112) -/
set_option autoImplicit false

namespace Fenris.NewtonLinear.Spec
open Fenris.Local Fenris.Local.Spec Fenris.LinearProblem.Spec Quadrature
open Fenris.Spec (entry SortsNodes)
open Cg (Vec)
variable {K : Type} [Field K] [LinearOrder K] {d s : Nat} {Param : Type} [Inhabited Param]

attribute [local instance] zeroFill

/-- The internal forces at `x`, as the vector assembler returns them, whatever its buffers contain. -/
def Forces (space : Space d K) (N : Nat) (table : Table (Point d K) K Param) (o : Operator d s K Param) (x : Vec (s * N) K) (forces : List K) :
    Prop :=
  ∃ (bufs : Nat → Buffer (Point d K) K Param) (outs : Nat → Nat → K) (elemVec : Nat → Except String (Nat → K)),
    (∀ e, e < space.length → ∃ buf', elementVector space o table (List.ofFn x) (bufs e) (outs e) e = some (elemVec e, buf')) ∧
      Assembly.assembleVector ⟨s, N, space.map (·.2)⟩ elemVec = some (.ok forces)

/-- The function given to Newton's method: the internal forces minus the loads, with the homogeneous conditions applied to them. -/
def ComputesResidual (space : Space d K) (N : Nat) (table : Table (Point d K) K Param) (o : Operator d s K Param) (nodes : List Nat)
    (load : List K) (residual : Vec (s * N) K → Vec (s * N) K) : Prop :=
  ∀ x, ∃ forces rhs, Forces space N table o x forces ∧
    Assembly.dirichletRhs (List.zipWith (· - ·) forces load) nodes s = some rhs ∧ residual x = fun i : Fin (s * N) => rhs.getD i 0

/-- The Jacobian solver given to Newton's method: it assembles the matrix at `x`, applies the homogeneous conditions to it, and returns
what the conjugate gradient solver, with tolerance zero and any guess and workspace, returns with `Ok`. -/
def SolvesWithCg (E : Type) (space : Space d K) (N : Nat) (table : Table (Point d K) K Param) (o : Operator d s K Param) (nodes : List Nat)
    (norm : List K → K) (solve : Nat → Vec (s * N) K → Vec (s * N) K → Except E (Vec (s * N) K)) : Prop :=
  ∀ i x f, ∃ (ord : List Nat → List Nat) (sortNodes : List (Nat × Nat) → List (Nat × Nat)) (bufs : Nat → Buffer (Point d K) K Param)
      (outs : Nat → Mat K) (elemMat : Nat → Except String (Mat K)) (w : CgBuffers.Workspace K) (guess : List K),
    (∀ l, (ord l).Perm l) ∧ SortsNodes sortNodes ∧ guess.length = s * N ∧
    (∀ e, e < space.length → ∃ buf', elementMatrix space o table (List.ofFn x) (bufs e) (outs e) e = some (elemMat e, buf')) ∧
    ∀ m m' y k, Assembly.assemble ord sortNodes ⟨s, N, space.map (·.2)⟩ elemMat = some (.ok m) → Assembly.dirichletCsr m nodes s = some m' →
      (CgBuffers.solveWithGuess (E := E) ⟨CgBuffers.csrOperator 0 1 (fullRows (s * N) m'), CgBuffers.identityOperator,
        CgBuffers.relativeResidual norm 0, none, norm⟩ (s * N + 1) w (List.ofFn f) guess).map Prod.fst = .done ⟨y, k, .ok ()⟩ →
      solve i x f = .ok fun j : Fin (s * N) => y.getD j 0

/-- The same with a relative tolerance `tol` of the conjugate gradient solver, which starts with zero. -/
def SolvesRoughly (E : Type) (space : Space d K) (N : Nat) (table : Table (Point d K) K Param) (o : Operator d s K Param) (nodes : List Nat)
    (norm : List K → K) (tol : K) (solve : Nat → Vec (s * N) K → Vec (s * N) K → Except E (Vec (s * N) K)) : Prop :=
  ∀ i x f, ∃ (ord : List Nat → List Nat) (sortNodes : List (Nat × Nat) → List (Nat × Nat)) (bufs : Nat → Buffer (Point d K) K Param)
      (outs : Nat → Mat K) (elemMat : Nat → Except String (Mat K)) (w : CgBuffers.Workspace K),
    (∀ l, (ord l).Perm l) ∧ SortsNodes sortNodes ∧
    (∀ e, e < space.length → ∃ buf', elementMatrix space o table (List.ofFn x) (bufs e) (outs e) e = some (elemMat e, buf')) ∧
    ∀ m m' y k, Assembly.assemble ord sortNodes ⟨s, N, space.map (·.2)⟩ elemMat = some (.ok m) → Assembly.dirichletCsr m nodes s = some m' →
      (CgBuffers.solveWithGuess (E := E) ⟨CgBuffers.csrOperator 0 1 (fullRows (s * N) m'), CgBuffers.identityOperator,
        CgBuffers.relativeResidual norm tol, none, norm⟩ (s * N + 1) w (List.ofFn f) (List.replicate (s * N) 0)).map Prod.fst =
          .done ⟨y, k, .ok ()⟩ →
      solve i x f = .ok fun j : Fin (s * N) => y.getD j 0

end Fenris.NewtonLinear.Spec
