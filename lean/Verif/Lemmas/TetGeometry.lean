import Verif.Lemmas.TetGrid
import Mathlib.Tactic.Linarith
import Mathlib.Tactic.NormNum
import Mathlib.Algebra.Order.Field.Basic
/-! # The geometry of the groups of tetrahedra around a cell -/
set_option autoImplicit false

namespace Fenris
namespace TetGrid
open Spec
variable {K : Type} [Field K] [LinearOrder K] [IsStrictOrderedRing K]

/-- A tetrahedron with the given list of vertices contains `p`. -/
def InL (t : List (Point 3 K)) (p : Point 3 K) : Prop := ∃ a b c d, t = [a, b, c, d] ∧ InTet a b c d p

/-- A tetrahedron with the given list of vertices contains `p` in its interior. -/
def InOpenL (t : List (Point 3 K)) (p : Point 3 K) : Prop := ∃ a b c d, t = [a, b, c, d] ∧ InOpenTet a b c d p

/-- From coordinates around the centre of a cell, with unit cells. -/
def place (h : K) (cell : Idx) (x : Point 3 K) : Point 3 K := fun a => h * (x a + (cell a : K) + 1 / 2)

/-- Coordinates around the centre of a cell. -/
def around (cell : Idx) : Node → Point 3 K
  | .vert q => fun a => (q a : K) - (cell a : K) - 1 / 2
  | .center q => fun a => (q a : K) - (cell a : K)

theorem place_around (h : K) (cell : Idx) (x : Node) : place h cell (around cell x) = nodePos h x := by
  cases x <;> funext a <;> simp only [place, around, nodePos] <;> ring

theorem inTet_place (h : K) (hh : h ≠ 0) (cell : Idx) (a b c d p : Point 3 K) :
    InTet (place h cell a) (place h cell b) (place h cell c) (place h cell d) (place h cell p) ↔ InTet a b c d p := by
  have key : ∀ α β γ δ : K, α + β + γ + δ = 1 → ∀ i, place h cell p i =
      α * place h cell a i + β * place h cell b i + γ * place h cell c i + δ * place h cell d i ↔
      p i = α * a i + β * b i + γ * c i + δ * d i := by
    intro α β γ δ hs i
    simp only [place]
    constructor
    · intro e
      apply mul_left_cancel₀ hh
      linear_combination e + h * ((cell i : K) + 1 / 2) * hs
    · intro e
      linear_combination h * e - h * ((cell i : K) + 1 / 2) * hs
  constructor
  · rintro ⟨α, β, γ, δ, h1, h2, h3, h4, h5, h6⟩
    exact ⟨α, β, γ, δ, h1, h2, h3, h4, h5, fun i => (key α β γ δ h5 i).mp (h6 i)⟩
  · rintro ⟨α, β, γ, δ, h1, h2, h3, h4, h5, h6⟩
    exact ⟨α, β, γ, δ, h1, h2, h3, h4, h5, fun i => (key α β γ δ h5 i).mpr (h6 i)⟩

theorem inOpenTet_place (h : K) (hh : h ≠ 0) (cell : Idx) (a b c d p : Point 3 K) :
    InOpenTet (place h cell a) (place h cell b) (place h cell c) (place h cell d) (place h cell p) ↔ InOpenTet a b c d p := by
  have key : ∀ α β γ δ : K, α + β + γ + δ = 1 → ∀ i, place h cell p i =
      α * place h cell a i + β * place h cell b i + γ * place h cell c i + δ * place h cell d i ↔
      p i = α * a i + β * b i + γ * c i + δ * d i := by
    intro α β γ δ hs i
    simp only [place]
    constructor
    · intro e
      apply mul_left_cancel₀ hh
      linear_combination e + h * ((cell i : K) + 1 / 2) * hs
    · intro e
      linear_combination h * e - h * ((cell i : K) + 1 / 2) * hs
  constructor
  · rintro ⟨α, β, γ, δ, h1, h2, h3, h4, h5, h6⟩
    exact ⟨α, β, γ, δ, h1, h2, h3, h4, h5, fun i => (key α β γ δ h5 i).mp (h6 i)⟩
  · rintro ⟨α, β, γ, δ, h1, h2, h3, h4, h5, h6⟩
    exact ⟨α, β, γ, δ, h1, h2, h3, h4, h5, fun i => (key α β γ δ h5 i).mpr (h6 i)⟩

/-- The tetrahedra between two centres, around the first of them. -/
def connU (axis : Fin 3) : List (List (Point 3 K)) :=
  let v : Nat → Point 3 K := fun i a => ((faceDeltas axis).getD i 0 a : K) - 1 / 2
  let c1 : Point 3 K := fun _ => 0
  let c2 : Point 3 K := fun a => (axisDelta axis a : K)
  [[c1, c2, v 1, v 0], [c1, c2, v 2, v 1], [c1, c2, v 3, v 2], [c1, c2, v 0, v 3]]

/-- The vertices of a side of a cell around its centre. -/
def sideU (axis : Fin 3) (positive : Bool) (i : Nat) : Point 3 K := fun a =>
  if positive then ((faceDeltas axis).getD i 0 a : K) - 1 / 2
  else if a = axis then -1 / 2 else ((faceDeltas axis).getD (3 - i) 0 a : K) - 1 / 2

/-- The tetrahedra of a pyramid around the centre of its cell. -/
def pyrU (axis : Fin 3) (positive even : Bool) : List (List (Point 3 K)) :=
  let v : Nat → Point 3 K := sideU axis positive
  let c : Point 3 K := fun _ => 0
  if even then [[v 0, v 1, v 2, c], [v 0, v 2, v 3, c]] else [[v 0, v 1, v 3, c], [v 1, v 2, v 3, c]]

theorem connN_around (cell : Idx) (axis : Fin 3) : (connN cell axis).map (List.map (around (K := K) cell)) = connU axis := by
  have e1 : around (K := K) cell (.center cell) = fun _ => 0 := by funext a; simp [around]
  have e2 : around (K := K) cell (.center fun a => cell a + axisDelta axis a) = fun a => (axisDelta axis a : K) := by
    funext a; simp [around]
  have e3 : ∀ i, around (K := K) cell (.vert fun a => cell a + (faceDeltas axis).getD i 0 a) =
      fun a => ((faceDeltas axis).getD i 0 a : K) - 1 / 2 := by
    intro i; funext a; simp [around]
  rw [connN_eq]
  simp only [List.map_cons, List.map_nil, e1, e2, e3, connU]

theorem pyrN_around (cell : Idx) (axis : Fin 3) (b : Bool) :
    (pyrN cell axis b).map (List.map (around (K := K) cell)) = pyrU axis b (decide ((cell 0 + cell 1 + cell 2) % 2 = 0)) := by
  have e1 : around (K := K) cell (.center cell) = fun _ => 0 := by funext a; simp [around]
  have e3 : ∀ i, i < 4 → around (K := K) cell (.vert ((faceVertices cell axis b).getD i 0)) = sideU axis b i := by
    intro i hi
    have : i = 0 ∨ i = 1 ∨ i = 2 ∨ i = 3 := by omega
    funext a
    rcases this with rfl | rfl | rfl | rfl <;> fin_cases axis <;> cases b <;> fin_cases a <;>
      simp [around, faceVertices, faceDeltas, sideU] <;> ring
  rw [pyrN_eq]
  simp only [pyrU]
  split
  · next h =>
    simp only [List.map_cons, List.map_nil, h, e1, e3 0 (by omega), e3 1 (by omega), e3 2 (by omega), e3 3 (by omega), decide_true,
      if_true]
  · next h =>
    simp only [List.map_cons, List.map_nil, h, e1, e3 0 (by omega), e3 1 (by omega), e3 2 (by omega), e3 3 (by omega), decide_false,
      if_false, Bool.false_eq_true]

/-! ### Interior points of a group -/

/-- Points nearer to the side of the cell in the positive direction of `axis`, seen from either of its sides, than to other sides. -/
def Near (axis : Fin 3) (x : Point 3 K) : Prop :=
  ∀ b, b ≠ axis → x b < x axis ∧ -x b < x axis ∧ x b < 1 - x axis ∧ -x b < 1 - x axis

/-- The same for the side in the negative direction. -/
def NearNeg (axis : Fin 3) (x : Point 3 K) : Prop :=
  ∀ b, b ≠ axis → x b < -x axis ∧ -x b < -x axis ∧ x b < 1 + x axis ∧ -x b < 1 + x axis

theorem near_conn (axis : Fin 3) (t : List (Point 3 K)) (ht : t ∈ connU axis) (x : Point 3 K) (hx : InOpenL t x) : Near axis x := by
  obtain ⟨a, b, c, d, rfl, α, β, γ, δ, h1, h2, h3, h4, h5, h6⟩ := hx
  have e0 := h6 0
  have e1 := h6 1
  have e2 := h6 2
  clear h6
  fin_cases axis <;> simp only [connU, List.mem_cons, List.not_mem_nil, or_false, List.cons.injEq, and_true] at ht <;>
    rcases ht with ⟨rfl, rfl, rfl, rfl⟩ | ⟨rfl, rfl, rfl, rfl⟩ | ⟨rfl, rfl, rfl, rfl⟩ | ⟨rfl, rfl, rfl, rfl⟩ <;>
    simp [faceDeltas, axisDelta] at e0 e1 e2 <;> intro b hb <;> fin_cases b <;> simp at hb ⊢ <;>
    refine ⟨?_, ?_, ?_, ?_⟩ <;> linarith

theorem near_pos (axis : Fin 3) (even : Bool) (t : List (Point 3 K)) (ht : t ∈ pyrU axis true even) (x : Point 3 K)
    (hx : InOpenL t x) : Near axis x := by
  obtain ⟨a, b, c, d, rfl, α, β, γ, δ, h1, h2, h3, h4, h5, h6⟩ := hx
  have e0 := h6 0
  have e1 := h6 1
  have e2 := h6 2
  clear h6
  fin_cases axis <;> cases even <;>
    simp only [pyrU, if_true, if_false, Bool.false_eq_true, List.mem_cons, List.not_mem_nil, or_false, List.cons.injEq, and_true] at ht <;>
    rcases ht with ⟨rfl, rfl, rfl, rfl⟩ | ⟨rfl, rfl, rfl, rfl⟩ <;>
    simp [faceDeltas, sideU] at e0 e1 e2 <;> intro b hb <;> fin_cases b <;> simp at hb ⊢ <;>
    refine ⟨?_, ?_, ?_, ?_⟩ <;> linarith

theorem near_neg (axis : Fin 3) (even : Bool) (t : List (Point 3 K)) (ht : t ∈ pyrU axis false even) (x : Point 3 K)
    (hx : InOpenL t x) : NearNeg axis x := by
  obtain ⟨a, b, c, d, rfl, α, β, γ, δ, h1, h2, h3, h4, h5, h6⟩ := hx
  have e0 := h6 0
  have e1 := h6 1
  have e2 := h6 2
  clear h6
  fin_cases axis <;> cases even <;>
    simp only [pyrU, if_true, if_false, Bool.false_eq_true, List.mem_cons, List.not_mem_nil, or_false, List.cons.injEq, and_true] at ht <;>
    rcases ht with ⟨rfl, rfl, rfl, rfl⟩ | ⟨rfl, rfl, rfl, rfl⟩ <;>
    simp [faceDeltas, sideU] at e0 e1 e2 <;> intro b hb <;> fin_cases b <;> simp at hb ⊢ <;>
    refine ⟨?_, ?_, ?_, ?_⟩ <;> linarith

/-! ### Disjoint interiors in a group -/

def Apart (t u : List (Point 3 K)) : Prop := ∀ x, InOpenL t x → ¬InOpenL u x

private theorem apart_of (a b c d a' b' c' d' : Point 3 K) (h : ∀ x : Point 3 K, ∀ α β γ δ α' β' γ' δ' : K,
    0 < α → 0 < β → 0 < γ → 0 < δ → α + β + γ + δ = 1 → 0 < α' → 0 < β' → 0 < γ' → 0 < δ' → α' + β' + γ' + δ' = 1 →
    (∀ i, x i = α * a i + β * b i + γ * c i + δ * d i) → (∀ i, x i = α' * a' i + β' * b' i + γ' * c' i + δ' * d' i) → False) :
    Apart [a, b, c, d] [a', b', c', d'] := by
  rintro x ⟨_, _, _, _, e, α, β, γ, δ, h1, h2, h3, h4, h5, h6⟩ ⟨_, _, _, _, e', α', β', γ', δ', k1, k2, k3, k4, k5, k6⟩
  simp only [List.cons.injEq, and_true] at e e'
  obtain ⟨rfl, rfl, rfl, rfl⟩ := e
  obtain ⟨rfl, rfl, rfl, rfl⟩ := e'
  exact h x α β γ δ α' β' γ' δ' h1 h2 h3 h4 h5 k1 k2 k3 k4 k5 h6 k6

theorem apart_conn (axis : Fin 3) : (connU (K := K) axis).Pairwise Apart := by
  simp only [connU, List.pairwise_cons, List.mem_cons, List.not_mem_nil, or_false, forall_eq_or_imp, forall_eq, List.Pairwise.nil,
    and_true, IsEmpty.forall_iff, implies_true]
  refine ⟨⟨?_, ?_, ?_⟩, ⟨?_, ?_⟩, ?_⟩ <;> apply apart_of <;>
    intro x α β γ δ α' β' γ' δ' h1 h2 h3 h4 h5 k1 k2 k3 k4 k5 h6 k6 <;>
    have e0 := h6 0 <;> have e1 := h6 1 <;> have e2 := h6 2 <;> have f0 := k6 0 <;> have f1 := k6 1 <;> have f2 := k6 2 <;>
    clear h6 k6 <;> fin_cases axis <;> simp [faceDeltas, axisDelta] at e0 e1 e2 f0 f1 f2 <;> linarith

theorem apart_pyr (axis : Fin 3) (b even : Bool) : (pyrU (K := K) axis b even).Pairwise Apart := by
  cases even <;> simp only [pyrU, if_true, if_false, Bool.false_eq_true, List.pairwise_cons, List.mem_cons, List.not_mem_nil, or_false,
    forall_eq, List.Pairwise.nil, and_true, IsEmpty.forall_iff, implies_true] <;> apply apart_of <;>
    intro x α β γ δ α' β' γ' δ' h1 h2 h3 h4 h5 k1 k2 k3 k4 k5 h6 k6 <;>
    have e0 := h6 0 <;> have e1 := h6 1 <;> have e2 := h6 2 <;> have f0 := k6 0 <;> have f1 := k6 1 <;> have f2 := k6 2 <;>
    clear h6 k6 <;> fin_cases axis <;> cases b <;> simp [faceDeltas, sideU] at e0 e1 e2 f0 f1 f2 <;> linarith

end TetGrid
end Fenris
