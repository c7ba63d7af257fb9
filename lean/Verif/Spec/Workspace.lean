import Verif.Model.Workspace
import Mathlib.Logic.Function.Basic
/-! # Specification of workspaces: one optional value for every type -/
set_option autoImplicit false

namespace Fenris.Workspace
namespace Spec

variable {ι : Type} [DecidableEq ι] {W : ι → Type}

/-- The values that exist, at most one for every type. -/
abbrev Store (W : ι → Type) := (t : ι) → Option (W t)

/-- One access: the value is created if there is none, then used. -/
def access {R : Type} (s : Store W) (t : ι) (create : Unit → W t) (f : W t → W t × R) : Store W × R × Bool :=
  let w := (s t).getD (create ())
  (Function.update s t (some (f w).1), (f w).2, (s t).isNone)

/-- An access with results of the type `R`. -/
structure Access (W : ι → Type) (R : Type) where
  t : ι
  create : Unit → W t
  f : W t → W t × R

/-- The results of a history of accesses to a store. -/
def history {R : Type} : Store W → List (Access W R) → List (R × Bool)
  | _, [] => []
  | s, a :: as => (access s a.t a.create a.f).2 :: history (access s a.t a.create a.f).1 as

/-- The results of a history of accesses to a workspace; `none` if one of them panics. -/
def results {R : Type} : Workspace W → List (Access W R) → Option (List (R × Bool))
  | _, [] => some []
  | ws, a :: as => (getOrInsertWith ws a.t a.create a.f).bind fun r => (results r.1 as).map (r.2 :: ·)

/-- A workspace stores exactly the values of a store: every value in one entry, and nothing else. -/
def Holds (ws : Workspace W) (s : Store W) : Prop :=
  (ws.map Sigma.fst).Nodup ∧ ∀ t w, (⟨t, w⟩ : Σ t, W t) ∈ ws ↔ s t = some w

/-- No workspace is used while it is borrowed; `ks` are the keys that are borrowed. -/
def NoReentry : Prog W → List Nat → Prop
  | .done, _ => True
  | .use key _ _ _ inner next, ks => key ∉ ks ∧ NoReentry inner (key :: ks) ∧ NoReentry next ks

/-- The effect of a program on stores, one for every key. -/
def effect : Prog W → (Nat → Store W) → (Nat → Store W)
  | .done, s => s
  | .use key t dflt f inner next, s =>
    effect next (effect inner (setKey s key (Function.update (s key) t (some (f ((s key t).getD dflt))))))

end Spec
end Fenris.Workspace
