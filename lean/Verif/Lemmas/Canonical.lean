import Verif.Lemmas.PolyBound
import Verif.Model.Canonical
import Mathlib.Tactic.FinCases
import Mathlib.Tactic.NormNum
import Mathlib.LinearAlgebra.Matrix.Determinant.Basic
/-! # Degrees and coefficients of the basis functions, their gradients and the geometry maps -/
set_option autoImplicit false

namespace Fenris.Canonical
open ShippedRules Element

/-! ## Entries of lists of functions -/

theorem getD_nil {X β : Type} (z : β) (Q : (X → β) → Prop) (hz : Q fun _ => z) : ∀ I : Nat, Q fun _ => (([] : List β))[I]?.getD z := by
  intro I
  simpa using hz

theorem getD_cons {X β : Type} (z : β) (Q : (X → β) → Prop) (f : X → β) (l : X → List β) (hf : Q f)
    (hl : ∀ I : Nat, Q fun x => (l x)[I]?.getD z) : ∀ I : Nat, Q fun x => (f x :: l x)[I]?.getD z := by
  intro I
  cases I with
  | zero => simpa using hf
  | succ I => simpa using hl I

theorem weightedSum_nil {d g : Nat} (v : Fin d → Nat) (r : Fin g) : ∀ ps : List (Point g ℝ), PolyVar v fun _ : Fin d → ℝ => weightedSum ps [] r := by
  intro ps
  cases ps <;> exact PolyVar.const _ _

theorem weightedSum_cons {d g : Nat} (v : Fin d → Nat) (r : Fin g) (f : (Fin d → ℝ) → ℝ) (l : (Fin d → ℝ) → List ℝ) (hf : PolyVar v f)
    (hl : ∀ ps : List (Point g ℝ), PolyVar v fun x => weightedSum ps (l x) r) :
    ∀ ps : List (Point g ℝ), PolyVar v fun x => weightedSum ps (f x :: l x) r := by
  intro ps
  cases ps with
  | nil => exact PolyVar.const _ _
  | cons p ps => exact (hf.smul (p r)).add (hl ps)

/-! ## Simplices -/

/-- Every component of a vector-valued function. -/
def GradBd {d : Nat} (n : Nat) (B : ℝ) (g : (Fin d → ℝ) → Fin d → ℝ) : Prop := ∀ k, PolyBd n B fun x => g x k

section psi
variable {d : Nat} {B : ℝ} {psi : (Fin d → ℝ) → Nat → ℝ} {g : Nat → Fin d → ℝ}

theorem quadVertex_bd (h : ∀ i, PolyBd 1 B fun x => psi x i) (i : Nat) {B' : ℝ} (hB : B * (2 * B + 1) ≤ B') :
    PolyBd 2 B' fun x => quadVertex (psi x) i := by
  have h1 := ((h i).smul 2).sub ((PolyBd.const 1).mono (Nat.zero_le 1) (le_refl _))
  refine ((h i).mul h1).mono le_rfl ?_
  norm_num
  exact hB

theorem quadEdge_bd (h : ∀ i, PolyBd 1 B fun x => psi x i) (i j : Nat) {B' : ℝ} (hB : 4 * B * B ≤ B') :
    PolyBd 2 B' fun x => quadEdge (psi x) i j := by
  refine (((h i).smul 4).mul (h j)).mono le_rfl ?_
  norm_num
  exact hB

theorem cubicVertex_bd (h : ∀ i, PolyBd 1 B fun x => psi x i) (i : Nat) {B' : ℝ} (hB : 1 / 2 * B * (3 * B + 1) * (3 * B + 2) ≤ B') :
    PolyBd 3 B' fun x => cubicVertex (psi x) i := by
  have h1 := ((h i).smul 3).sub ((PolyBd.const 1).mono (Nat.zero_le 1) (le_refl _))
  have h2 := ((h i).smul 3).sub ((PolyBd.const 2).mono (Nat.zero_le 1) (le_refl _))
  refine ((((h i).smul (1 / 2)).mul h1).mul h2).mono le_rfl ?_
  norm_num at hB ⊢
  exact hB

theorem cubicEdge_bd (h : ∀ i, PolyBd 1 B fun x => psi x i) (i j : Nat) {B' : ℝ} (hB : 9 / 2 * B * B * (3 * B + 1) ≤ B') :
    PolyBd 3 B' fun x => cubicEdge (psi x) i j := by
  have h1 := ((h i).smul 3).sub ((PolyBd.const 1).mono (Nat.zero_le 1) (le_refl _))
  refine ((((h i).smul (9 / 2)).mul (h j)).mul h1).mono le_rfl ?_
  rw [abs_of_pos (by norm_num : (0 : ℝ) < 9 / 2), abs_of_pos (by norm_num : (0 : ℝ) < 3), abs_one]
  exact hB

theorem cubicFace_bd (h : ∀ i, PolyBd 1 B fun x => psi x i) (i j k : Nat) {B' : ℝ} (hB : 27 * B * B * B ≤ B') :
    PolyBd 3 B' fun x => cubicFace (psi x) i j k := by
  refine ((((h i).smul 27).mul (h j)).mul (h k)).mono le_rfl ?_
  rw [abs_of_pos (by norm_num : (0 : ℝ) < 27)]
  exact hB

theorem const_bd {n : Nat} (hg : ∀ i k, |g i k| ≤ 1 / 2) (i : Nat) : GradBd n (1 / 2) fun _ : Fin d → ℝ => g i :=
  fun k => (PolyBd.const (g i k)).mono (Nat.zero_le n) (hg i k)

theorem quadVertexGrad_bd (h : ∀ i, PolyBd 1 B fun x => psi x i) (hg : ∀ i k, |g i k| ≤ 1 / 2) (i : Nat) {B' : ℝ}
    (hB : 1 / 2 * (4 * B + 1) ≤ B') : GradBd 1 B' fun x => quadVertexGrad (psi x) g i := by
  intro k
  have h1 := ((h i).smul 4).sub ((PolyBd.const 1).mono (Nat.zero_le 1) (le_refl _))
  have h0 := const_bd (n := 0) hg i k
  refine (h0.mul h1).mono le_rfl ?_
  rw [abs_of_pos (by norm_num : (0 : ℝ) < 4), abs_one]
  exact hB

theorem quadEdgeGrad_bd (h : ∀ i, PolyBd 1 B fun x => psi x i) (hg : ∀ i k, |g i k| ≤ 1 / 2) (i j : Nat) {B' : ℝ}
    (hB : 4 * B ≤ B') : GradBd 1 B' fun x => quadEdgeGrad (psi x) g i j := by
  intro k
  refine (((const_bd (n := 0) hg i k).mul ((h j).smul 4)).add ((const_bd (n := 0) hg j k).mul ((h i).smul 4))).mono le_rfl ?_
  rw [abs_of_pos (by norm_num : (0 : ℝ) < 4)]
  linarith

end psi

section cubic
variable {B : ℝ} {psi : (Fin 3 → ℝ) → Nat → ℝ} {g : Nat → Fin 3 → ℝ}

theorem cubicVertexGrad_bd (h : ∀ i, PolyBd 1 B fun x => psi x i) (hg : ∀ i k, |g i k| ≤ 1 / 2) (i : Nat) {B' : ℝ}
    (hB : 1 / 4 * (27 * B * B + 18 * B + 2) ≤ B') : GradBd 2 B' fun x => cubicVertexGrad (psi x) g i := by
  intro k
  have h1 := ((((h i).smul 27).mul (h i)).sub (((h i).smul 18).mono (by decide : 1 ≤ 1 + 1) (le_refl _))).add
    ((PolyBd.const 2).mono (Nat.zero_le (1 + 1)) (le_refl _))
  refine ((((const_bd (n := 0) hg i k).mul (PolyBd.const (1 / 2))).mul h1)).mono le_rfl ?_
  rw [abs_of_pos (by norm_num : (0 : ℝ) < 27), abs_of_pos (by norm_num : (0 : ℝ) < 18), abs_of_pos (by norm_num : (0 : ℝ) < 2),
    abs_of_pos (by norm_num : (0 : ℝ) < 1 / 2)]
  linarith

theorem cubicEdgeGrad_bd (h : ∀ i, PolyBd 1 B fun x => psi x i) (hg : ∀ i k, |g i k| ≤ 1 / 2) (a b : Nat) {B' : ℝ}
    (hB : (1 / 2 * (B * (6 * B + 1)) + 1 / 2 * (B * (3 * B + 1))) * (9 / 2) ≤ B') : GradBd 2 B' fun x => cubicEdgeGrad (psi x) g a b := by
  intro k
  have h1 := ((h a).smul 6).sub ((PolyBd.const 1).mono (Nat.zero_le 1) (le_refl _))
  have h2 := ((h a).smul 3).sub ((PolyBd.const 1).mono (Nat.zero_le 1) (le_refl _))
  refine ((((const_bd (n := 0) hg a k).mul ((h b).mul h1)).add ((const_bd (n := 0) hg b k).mul ((h a).mul h2))).mul
    (PolyBd.const (9 / 2))).mono le_rfl ?_
  rw [abs_of_pos (by norm_num : (0 : ℝ) < 6), abs_of_pos (by norm_num : (0 : ℝ) < 3), abs_one, abs_of_pos (by norm_num : (0 : ℝ) < 9 / 2)]
  exact hB

theorem cubicFaceGrad_bd (h : ∀ i, PolyBd 1 B fun x => psi x i) (hg : ∀ i k, |g i k| ≤ 1 / 2) (a b c : Nat) {B' : ℝ}
    (hB : (1 / 2 * B * B + 1 / 2 * B * B + 1 / 2 * B * B) * 27 ≤ B') : GradBd 2 B' fun x => cubicFaceGrad (psi x) g a b c := by
  intro k
  refine ((((((const_bd (n := 0) hg a k).mul (h b)).mul (h c)).add (((const_bd (n := 0) hg b k).mul (h a)).mul (h c))).add
    (((const_bd (n := 0) hg c k).mul (h a)).mul (h b))).mul (PolyBd.const 27)).mono le_rfl ?_
  rw [abs_of_pos (by norm_num : (0 : ℝ) < 27)]
  exact hB

end cubic

theorem tri3Psi_bd (i : Nat) : PolyBd 1 1 fun x : Fin 2 → ℝ => tri3Psi x i := by
  have hc : PolyBd (d := 2) 1 (1 / 2) fun _ => 1 / 2 := by
    have := (PolyBd.const (d := 2) (1 / 2)).mono (Nat.zero_le 1) (le_refl _)
    rwa [abs_of_pos (by norm_num : (0 : ℝ) < 1 / 2)] at this
  have hx : ∀ k : Fin 2, PolyBd 1 (1 / 2) fun x : Fin 2 → ℝ => 1 / 2 * x k := by
    intro k
    have := (PolyBd.coord k).smul (1 / 2)
    rwa [abs_of_pos (by norm_num : (0 : ℝ) < 1 / 2), mul_one] at this
  have hn : PolyBd 1 (1 / 2) fun x : Fin 2 → ℝ => -(1 / 2) * x 0 := by
    have := (PolyBd.coord (0 : Fin 2)).smul (-(1 / 2))
    rwa [abs_neg, abs_of_pos (by norm_num : (0 : ℝ) < 1 / 2), mul_one] at this
  unfold tri3Psi
  by_cases h0 : i = 0
  · simp only [h0, if_true]
    exact (hn.sub (hx 1)).mono le_rfl (by norm_num)
  · by_cases h1 : i = 1
    · simp only [h1, one_ne_zero, if_false, if_true]
      exact ((hx 0).add hc).mono le_rfl (by norm_num)
    · simp only [h0, h1, if_false]
      exact ((hx 1).add hc).mono le_rfl (by norm_num)

theorem tet4Psi_bd (i : Nat) : PolyBd 1 2 fun x : Fin 3 → ℝ => tet4Psi x i := by
  have hc : PolyBd (d := 3) 1 (1 / 2) fun _ => 1 / 2 := by
    have := (PolyBd.const (d := 3) (1 / 2)).mono (Nat.zero_le 1) (le_refl _)
    rwa [abs_of_pos (by norm_num : (0 : ℝ) < 1 / 2)] at this
  have hx : ∀ k : Fin 3, PolyBd 1 (1 / 2) fun x : Fin 3 → ℝ => 1 / 2 * x k := by
    intro k
    have := (PolyBd.coord k).smul (1 / 2)
    rwa [abs_of_pos (by norm_num : (0 : ℝ) < 1 / 2), mul_one] at this
  have hn : PolyBd 1 (1 / 2) fun x : Fin 3 → ℝ => -(1 / 2) * x 0 := by
    have := (PolyBd.coord (0 : Fin 3)).smul (-(1 / 2))
    rwa [abs_neg, abs_of_pos (by norm_num : (0 : ℝ) < 1 / 2), mul_one] at this
  unfold tet4Psi
  by_cases h0 : i = 0
  · simp only [h0, if_true]
    exact (((hn.sub (hx 1)).sub (hx 2)).sub hc).mono le_rfl (by norm_num)
  · by_cases h1 : i = 1
    · simp only [h1, one_ne_zero, if_false, if_true]
      exact ((hx 0).add hc).mono le_rfl (by norm_num)
    · by_cases h2 : i = 2
      · simp only [h0, h1, h2, if_false, if_true]
        exact ((hx 1).add hc).mono le_rfl (by norm_num)
      · simp only [h0, h1, h2, if_false]
        exact ((hx 2).add hc).mono le_rfl (by norm_num)

theorem tri3G_le (i : Nat) (k : Fin 2) : |(tri3G i : Fin 2 → ℝ) k| ≤ 1 / 2 := by
  unfold tri3G
  split
  · fin_cases k <;> norm_num [abs_le]
  · split <;> fin_cases k <;> norm_num [abs_le]

theorem tet4G_le (i : Nat) (k : Fin 3) : |(tet4G i : Fin 3 → ℝ) k| ≤ 1 / 2 := by
  unfold tet4G
  split
  · fin_cases k <;> norm_num [abs_le]
  · split
    · fin_cases k <;> norm_num [abs_le]
    · split <;> fin_cases k <;> norm_num [abs_le]

/-- The total degree of the basis of a simplex. -/
def simplexDegree : Kind → Nat
  | .tri6 | .tet10 => 2
  | .tet20 => 3
  | _ => 1

theorem tri3_basis (I : Nat) : PolyBd 1 1 fun x : Fin 2 → ℝ => (tri3Basis x)[I]?.getD 0 := by
  revert I
  unfold tri3Basis
  repeat' first
    | exact getD_nil 0 (PolyBd 1 1) (PolyBd.zero.mono le_rfl zero_le_one)
    | refine getD_cons 0 (PolyBd 1 1) _ _ ?_ ?_
    | exact tri3Psi_bd _

theorem tri6_basis (I : Nat) : PolyBd 2 4 fun x : Fin 2 → ℝ => (tri6Basis x)[I]?.getD 0 := by
  revert I
  unfold tri6Basis
  repeat' first
    | exact getD_nil 0 (PolyBd 2 4) (PolyBd.zero.mono le_rfl (by norm_num))
    | refine getD_cons 0 (PolyBd 2 4) _ _ ?_ ?_
    | exact quadVertex_bd (fun i => tri3Psi_bd i) _ (by norm_num)
    | exact quadEdge_bd (fun i => tri3Psi_bd i) _ _ (by norm_num)

theorem tet4_basis (I : Nat) : PolyBd 1 2 fun x : Fin 3 → ℝ => (tet4Basis x)[I]?.getD 0 := by
  revert I
  unfold tet4Basis
  repeat' first
    | exact getD_nil 0 (PolyBd 1 2) (PolyBd.zero.mono le_rfl zero_le_two)
    | refine getD_cons 0 (PolyBd 1 2) _ _ ?_ ?_
    | exact tet4Psi_bd _

theorem tet10_basis (I : Nat) : PolyBd 2 16 fun x : Fin 3 → ℝ => (tet10Basis x)[I]?.getD 0 := by
  revert I
  unfold tet10Basis
  repeat' first
    | exact getD_nil 0 (PolyBd 2 16) (PolyBd.zero.mono le_rfl (by norm_num))
    | refine getD_cons 0 (PolyBd 2 16) _ _ ?_ ?_
    | exact quadVertex_bd (fun i => tet4Psi_bd i) _ (by norm_num)
    | exact quadEdge_bd (fun i => tet4Psi_bd i) _ _ (by norm_num)

theorem tet20_basis (I : Nat) : PolyBd 3 216 fun x : Fin 3 → ℝ => (tet20Basis x)[I]?.getD 0 := by
  revert I
  unfold tet20Basis
  repeat' first
    | exact getD_nil 0 (PolyBd 3 216) (PolyBd.zero.mono le_rfl (by norm_num))
    | refine getD_cons 0 (PolyBd 3 216) _ _ ?_ ?_
    | exact cubicVertex_bd (fun i => tet4Psi_bd i) _ (by norm_num)
    | exact cubicEdge_bd (fun i => tet4Psi_bd i) _ _ (by norm_num)
    | exact cubicFace_bd (fun i => tet4Psi_bd i) _ _ _ (by norm_num)

theorem gradBd_zero {d n : Nat} {B : ℝ} (h : 0 ≤ B) : GradBd (d := d) n B fun _ => 0 := fun _ => PolyBd.zero.mono le_rfl h

theorem tri3_gradients (I : Nat) : GradBd 0 (1 / 2) fun x : Fin 2 → ℝ => (tri3Gradients x)[I]?.getD 0 := by
  revert I
  unfold tri3Gradients
  repeat' first
    | exact getD_nil 0 (GradBd 0 (1 / 2)) (gradBd_zero (by norm_num))
    | refine getD_cons 0 (GradBd 0 (1 / 2)) _ _ ?_ ?_
    | exact const_bd tri3G_le _

theorem tri6_gradients (I : Nat) : GradBd 1 4 fun x : Fin 2 → ℝ => (tri6Gradients x)[I]?.getD 0 := by
  revert I
  unfold tri6Gradients
  repeat' first
    | exact getD_nil 0 (GradBd 1 4) (gradBd_zero (by norm_num))
    | refine getD_cons 0 (GradBd 1 4) _ _ ?_ ?_
    | exact quadVertexGrad_bd (fun i => tri3Psi_bd i) tri3G_le _ (by norm_num)
    | exact quadEdgeGrad_bd (fun i => tri3Psi_bd i) tri3G_le _ _ (by norm_num)

theorem tet4_gradients (I : Nat) : GradBd 0 (1 / 2) fun x : Fin 3 → ℝ => (tet4Gradients x)[I]?.getD 0 := by
  revert I
  unfold tet4Gradients
  repeat' first
    | exact getD_nil 0 (GradBd 0 (1 / 2)) (gradBd_zero (by norm_num))
    | refine getD_cons 0 (GradBd 0 (1 / 2)) _ _ ?_ ?_
    | exact const_bd tet4G_le _

theorem tet10_gradients (I : Nat) : GradBd 1 8 fun x : Fin 3 → ℝ => (tet10Gradients x)[I]?.getD 0 := by
  revert I
  unfold tet10Gradients
  repeat' first
    | exact getD_nil 0 (GradBd 1 8) (gradBd_zero (by norm_num))
    | refine getD_cons 0 (GradBd 1 8) _ _ ?_ ?_
    | exact quadVertexGrad_bd (fun i => tet4Psi_bd i) tet4G_le _ (by norm_num)
    | exact quadEdgeGrad_bd (fun i => tet4Psi_bd i) tet4G_le _ _ (by norm_num)

theorem tet20_gradients (I : Nat) : GradBd 2 162 fun x : Fin 3 → ℝ => (tet20Gradients x)[I]?.getD 0 := by
  revert I
  unfold tet20Gradients
  repeat' first
    | exact getD_nil 0 (GradBd 2 162) (gradBd_zero (by norm_num))
    | refine getD_cons 0 (GradBd 2 162) _ _ ?_ ?_
    | exact cubicVertexGrad_bd (fun i => tet4Psi_bd i) tet4G_le _ (by norm_num)
    | exact cubicEdgeGrad_bd (fun i => tet4Psi_bd i) tet4G_le _ _ (by norm_num)
    | exact cubicFaceGrad_bd (fun i => tet4Psi_bd i) tet4G_le _ _ _ (by norm_num)

/-! ## Quadrilaterals and hexahedra -/

/-- Every component of a vector-valued function. -/
def GradVar {d : Nat} (v : Fin d → Nat) (g : (Fin d → ℝ) → Fin d → ℝ) : Prop := ∀ k, PolyVar v fun x => g x k

theorem gradVar_zero {d : Nat} (v : Fin d → Nat) : GradVar v fun _ => 0 := fun _ => PolyVar.const v 0

theorem lin {d : Nat} (i : Fin d) (a : ℝ) : PolyVar (Pi.single i 1) fun x : Fin d → ℝ => 1 + a * x i :=
  (PolyVar.linear i a 1).congr fun x => by ring

theorem phiLinear1d_var {d : Nat} (i : Fin d) (a : ℝ) : PolyVar (Pi.single i 1) fun x : Fin d → ℝ => phiLinear1d a (x i) :=
  (PolyVar.linear i (a / 2) (1 / 2)).congr fun x => by unfold phiLinear1d; ring

theorem phiQuadratic1d_var {d : Nat} (i : Fin d) (a : ℝ) : PolyVar (Pi.single i 2) fun x : Fin d → ℝ => phiQuadratic1d a (x i) :=
  (PolyVar.univariate i (3 / 2 * (a * a) - 1) (1 / 2 * a) (1 - a * a)).congr fun x => by unfold phiQuadratic1d; ring

theorem phiQuadratic1dGrad_var {d : Nat} (i : Fin d) (a : ℝ) : PolyVar (Pi.single i 1) fun x : Fin d → ℝ => phiQuadratic1dGrad a (x i) :=
  (PolyVar.linear i (2 * (3 / 2 * (a * a) - 1)) (1 / 2 * a)).congr fun x => by unfold phiQuadratic1dGrad; ring

theorem quad9Phi1d_var {d : Nat} (i : Fin d) (a : ℝ) : PolyVar (Pi.single i 2) fun x : Fin d → ℝ => quad9Phi1d a (x i) :=
  (PolyVar.univariate i (3 / 2 * (a * a) - 1) (a / 2) (1 - a * a)).congr fun x => by unfold quad9Phi1d; ring

theorem quad9PhiGrad1d_var {d : Nat} (i : Fin d) (a : ℝ) : PolyVar (Pi.single i 1) fun x : Fin d → ℝ => quad9PhiGrad1d a (x i) :=
  (PolyVar.linear i (2 * (3 / 2 * (a * a) - 1)) (a / 2)).congr fun x => by unfold quad9PhiGrad1d; ring

theorem quad4Phi_var (a b : ℝ) : PolyVar (fun _ => 1) (quad4Phi a b) :=
  ((((lin 0 a).mul (lin 1 b)).smul (1 / 4)).mono (by decide)).congr fun x => by unfold quad4Phi; ring

theorem quad9Phi_var (a b : ℝ) : PolyVar (fun _ => 2) (quad9Phi a b) :=
  ((quad9Phi1d_var 0 a).mul (quad9Phi1d_var 1 b)).mono (by decide)

theorem hex8Phi_var (a b c : ℝ) : PolyVar (fun _ => 1) (hex8Phi a b c) :=
  (((phiLinear1d_var 0 a).mul (phiLinear1d_var 1 b)).mul (phiLinear1d_var 2 c)).mono (by decide)

theorem hex27Phi_var (a b c : ℝ) : PolyVar (fun _ => 2) (hex27Phi a b c) :=
  (((phiQuadratic1d_var 0 a).mul (phiQuadratic1d_var 1 b)).mul (phiQuadratic1d_var 2 c)).mono (by decide)

theorem hex20Corner_var (a b c : ℝ) : PolyVar (fun _ => 2) (hex20Corner a b c) := by
  have h1 : PolyVar (fun _ => 1) fun x : Fin 3 → ℝ => a * x 0 + b * x 1 + c * x 2 - 2 :=
    ((((PolyVar.coord 0).smul a).mono (by decide) |>.add (((PolyVar.coord 1).smul b).mono (by decide))).add
      (((PolyVar.coord 2).smul c).mono (by decide))).sub (PolyVar.const _ 2)
  exact ((((((lin 0 a).smul (1 / 8)).mul (lin 1 b)).mul (lin 2 c)).mul h1).mono (by decide))

/-- The factors of the edge functions in one variable. -/
theorem edgeFactor_var {d : Nat} (i : Fin d) (a : ℝ) (ha : a = -1 ∨ a = 0 ∨ a = 1) :
    PolyVar (Pi.single i 2) fun x : Fin d → ℝ => (1 - (1 - a * a) * x i * x i) * (1 + a * x i) := by
  rcases ha with rfl | rfl | rfl
  · exact (PolyVar.univariate i 0 (-1) 1).congr fun x => by ring
  · exact (PolyVar.univariate i (-1) 0 1).congr fun x => by ring
  · exact (PolyVar.univariate i 0 1 1).congr fun x => by ring

theorem edgeFactorGrad_var {d : Nat} (i : Fin d) (a : ℝ) (ha : a = -1 ∨ a = 0 ∨ a = 1) :
    PolyVar (Pi.single i 2) fun x : Fin d → ℝ => -2 * (1 - a * a) * x i * (1 + a * x i) + (1 - (1 - a * a) * x i * x i) * a := by
  rcases ha with rfl | rfl | rfl
  · exact (PolyVar.univariate i 0 0 (-1)).congr fun x => by ring
  · exact (PolyVar.univariate i 0 (-2) 0).congr fun x => by ring
  · exact (PolyVar.univariate i 0 0 1).congr fun x => by ring

theorem hex20Edge_var (a b c : ℝ) (ha : a = -1 ∨ a = 0 ∨ a = 1) (hb : b = -1 ∨ b = 0 ∨ b = 1) (hc : c = -1 ∨ c = 0 ∨ c = 1) :
    PolyVar (fun _ => 2) (hex20Edge a b c) :=
  (((((edgeFactor_var 0 a ha).mul (edgeFactor_var 1 b hb)).mul (edgeFactor_var 2 c hc)).smul (1 / 4)).mono (by decide)).congr
    fun x => by unfold hex20Edge; ring

theorem quad4PhiGrad_var (a b : ℝ) : GradVar (fun _ => 1) (quad4PhiGrad a b) := by
  intro k
  fin_cases k
  · exact (((lin 1 b).smul (a / 4)).mono (by decide)).congr fun x => by simp only [quad4PhiGrad]; simp; ring
  · exact (((lin 0 a).smul (b / 4)).mono (by decide)).congr fun x => by simp only [quad4PhiGrad]; simp; ring

theorem quad9PhiGrad_var (a b : ℝ) : GradVar (fun _ => 2) (quad9PhiGrad a b) := by
  intro k
  fin_cases k
  · exact (((quad9Phi1d_var 1 b).mul (quad9PhiGrad1d_var 0 a)).mono (by decide))
  · exact (((quad9Phi1d_var 0 a).mul (quad9PhiGrad1d_var 1 b)).mono (by decide))

theorem hex8PhiGrad_var (a b c : ℝ) : GradVar (fun _ => 1) (hex8PhiGrad a b c) := by
  intro k
  fin_cases k
  · exact (((phiLinear1d_var 1 b).smul (phiLinear1dGrad a)).mul (phiLinear1d_var 2 c)).mono (by decide)
  · exact ((((phiLinear1d_var 0 a).smul (phiLinear1dGrad b)).mul (phiLinear1d_var 2 c)).mono (by decide)).congr fun x => by
      simp only [hex8PhiGrad]; simp; ring_nf; simp
  · exact ((((phiLinear1d_var 0 a).mul (phiLinear1d_var 1 b)).smul (phiLinear1dGrad c)).mono (by decide)).congr fun x => by
      simp only [hex8PhiGrad]; simp; ring

theorem hex27PhiGrad_var (a b c : ℝ) : GradVar (fun _ => 2) (hex27PhiGrad a b c) := by
  intro k
  fin_cases k
  · exact (((phiQuadratic1dGrad_var 0 a).mul (phiQuadratic1d_var 1 b)).mul (phiQuadratic1d_var 2 c)).mono (by decide)
  · exact (((phiQuadratic1d_var 0 a).mul (phiQuadratic1dGrad_var 1 b)).mul (phiQuadratic1d_var 2 c)).mono (by decide)
  · exact (((phiQuadratic1d_var 0 a).mul (phiQuadratic1d_var 1 b)).mul (phiQuadratic1dGrad_var 2 c)).mono (by decide)

theorem hex20CornerGrad_var (a b c : ℝ) : GradVar (fun _ => 2) (hex20CornerGrad a b c) := by
  have h1 : PolyVar (fun _ => 1) fun x : Fin 3 → ℝ => a * x 0 + b * x 1 + c * x 2 - 2 :=
    ((((PolyVar.coord 0).smul a).mono (by decide) |>.add (((PolyVar.coord 1).smul b).mono (by decide))).add
      (((PolyVar.coord 2).smul c).mono (by decide))).sub (PolyVar.const _ 2)
  have hg : PolyVar (fun _ => 2) fun x : Fin 3 → ℝ => (1 + a * x 0) * (1 + b * x 1) * (1 + c * x 2) :=
    (((lin 0 a).mul (lin 1 b)).mul (lin 2 c)).mono (by decide)
  intro k
  fin_cases k
  · exact ((hg.smul a).add ((((h1.smul a).mul (lin 1 b)).mul (lin 2 c)).mono (by decide))).smul (1 / 8) |>.congr fun x => by
      simp only [hex20CornerGrad]; simp; ring_nf; simp
  · exact ((hg.smul b).add ((((h1.smul b).mul (lin 0 a)).mul (lin 2 c)).mono (by decide))).smul (1 / 8) |>.congr fun x => by
      simp only [hex20CornerGrad]; simp; ring_nf; simp
  · exact ((hg.smul c).add ((((h1.smul c).mul (lin 0 a)).mul (lin 1 b)).mono (by decide))).smul (1 / 8) |>.congr fun x => by
      simp only [hex20CornerGrad]; simp; ring_nf; simp

theorem hex20EdgeGrad_var (a b c : ℝ) (ha : a = -1 ∨ a = 0 ∨ a = 1) (hb : b = -1 ∨ b = 0 ∨ b = 1) (hc : c = -1 ∨ c = 0 ∨ c = 1) :
    GradVar (fun _ => 2) (hex20EdgeGrad a b c) := by
  intro k
  fin_cases k
  · exact (((((edgeFactorGrad_var 0 a ha).mul (edgeFactor_var 1 b hb)).mul (edgeFactor_var 2 c hc)).smul (1 / 4)).mono (by decide)).congr
      fun x => by simp only [hex20EdgeGrad]; simp; ring
  · exact (((((edgeFactor_var 0 a ha).mul (edgeFactorGrad_var 1 b hb)).mul (edgeFactor_var 2 c hc)).smul (1 / 4)).mono (by decide)).congr
      fun x => by simp only [hex20EdgeGrad]; simp; ring
  · exact (((((edgeFactor_var 0 a ha).mul (edgeFactor_var 1 b hb)).mul (edgeFactorGrad_var 2 c hc)).smul (1 / 4)).mono (by decide)).congr
      fun x => by simp only [hex20EdgeGrad]; simp; ring

theorem quad4_basis (I : Nat) : PolyVar (fun _ => 1) fun x : Fin 2 → ℝ => (quad4Basis x)[I]?.getD 0 := by
  revert I
  unfold quad4Basis
  repeat' first
    | exact getD_nil 0 (PolyVar fun _ => 1) (PolyVar.const _ 0)
    | refine getD_cons 0 (PolyVar fun _ => 1) _ _ ?_ ?_
    | exact quad4Phi_var _ _

theorem quad9_basis (I : Nat) : PolyVar (fun _ => 2) fun x : Fin 2 → ℝ => (quad9Basis x)[I]?.getD 0 := by
  revert I
  unfold quad9Basis
  repeat' first
    | exact getD_nil 0 (PolyVar fun _ => 2) (PolyVar.const _ 0)
    | refine getD_cons 0 (PolyVar fun _ => 2) _ _ ?_ ?_
    | exact quad9Phi_var _ _

theorem hex8_basis (I : Nat) : PolyVar (fun _ => 1) fun x : Fin 3 → ℝ => (hex8Basis x)[I]?.getD 0 := by
  revert I
  unfold hex8Basis
  repeat' first
    | exact getD_nil 0 (PolyVar fun _ => 1) (PolyVar.const _ 0)
    | refine getD_cons 0 (PolyVar fun _ => 1) _ _ ?_ ?_
    | exact hex8Phi_var _ _ _

theorem hex27_basis (I : Nat) : PolyVar (fun _ => 2) fun x : Fin 3 → ℝ => (hex27Basis x)[I]?.getD 0 := by
  revert I
  unfold hex27Basis
  repeat' first
    | exact getD_nil 0 (PolyVar fun _ => 2) (PolyVar.const _ 0)
    | refine getD_cons 0 (PolyVar fun _ => 2) _ _ ?_ ?_
    | exact hex27Phi_var _ _ _

theorem hex20_basis (I : Nat) : PolyVar (fun _ => 2) fun x : Fin 3 → ℝ => (hex20Basis x)[I]?.getD 0 := by
  revert I
  unfold hex20Basis
  repeat' first
    | exact getD_nil 0 (PolyVar fun _ => 2) (PolyVar.const _ 0)
    | refine getD_cons 0 (PolyVar fun _ => 2) _ _ ?_ ?_
    | exact hex20Corner_var _ _ _
    | exact hex20Edge_var _ _ _ (by simp) (by simp) (by simp)

theorem quad4_gradients (I : Nat) : GradVar (fun _ => 1) fun x : Fin 2 → ℝ => (quad4Gradients x)[I]?.getD 0 := by
  revert I
  unfold quad4Gradients
  repeat' first
    | exact getD_nil 0 (GradVar fun _ => 1) (gradVar_zero _)
    | refine getD_cons 0 (GradVar fun _ => 1) _ _ ?_ ?_
    | exact quad4PhiGrad_var _ _

theorem quad9_gradients (I : Nat) : GradVar (fun _ => 2) fun x : Fin 2 → ℝ => (quad9Gradients x)[I]?.getD 0 := by
  revert I
  unfold quad9Gradients
  repeat' first
    | exact getD_nil 0 (GradVar fun _ => 2) (gradVar_zero _)
    | refine getD_cons 0 (GradVar fun _ => 2) _ _ ?_ ?_
    | exact quad9PhiGrad_var _ _

theorem hex8_gradients (I : Nat) : GradVar (fun _ => 1) fun x : Fin 3 → ℝ => (hex8Gradients x)[I]?.getD 0 := by
  revert I
  unfold hex8Gradients
  repeat' first
    | exact getD_nil 0 (GradVar fun _ => 1) (gradVar_zero _)
    | refine getD_cons 0 (GradVar fun _ => 1) _ _ ?_ ?_
    | exact hex8PhiGrad_var _ _ _

theorem hex27_gradients (I : Nat) : GradVar (fun _ => 2) fun x : Fin 3 → ℝ => (hex27Gradients x)[I]?.getD 0 := by
  revert I
  unfold hex27Gradients
  repeat' first
    | exact getD_nil 0 (GradVar fun _ => 2) (gradVar_zero _)
    | refine getD_cons 0 (GradVar fun _ => 2) _ _ ?_ ?_
    | exact hex27PhiGrad_var _ _ _

theorem hex20_gradients (I : Nat) : GradVar (fun _ => 2) fun x : Fin 3 → ℝ => (hex20Gradients x)[I]?.getD 0 := by
  revert I
  unfold hex20Gradients
  repeat' first
    | exact getD_nil 0 (GradVar fun _ => 2) (gradVar_zero _)
    | refine getD_cons 0 (GradVar fun _ => 2) _ _ ?_ ?_
    | exact hex20CornerGrad_var _ _ _
    | exact hex20EdgeGrad_var _ _ _ (by simp) (by simp) (by simp)

/-! ## Determinants of bilinear maps -/

theorem quad4_column0 (ps : List (Point 2 ℝ)) (r : Fin 2) :
    PolyVar (Pi.single 1 1) fun x : Fin 2 → ℝ => weightedSum ps ((quad4Gradients x).map fun G => G 0) r := by
  revert ps
  have h : ∀ a b : ℝ, PolyVar (Pi.single 1 1) fun x : Fin 2 → ℝ => quad4PhiGrad a b x 0 := fun a b =>
    ((lin 1 b).smul (a / 4)).congr fun x => by simp only [quad4PhiGrad]; simp; ring
  unfold quad4Gradients
  simp only [List.map_cons, List.map_nil]
  repeat' first
    | exact weightedSum_nil _ _
    | refine weightedSum_cons _ _ _ _ ?_ ?_
    | exact h _ _

theorem quad4_column1 (ps : List (Point 2 ℝ)) (r : Fin 2) :
    PolyVar (Pi.single 0 1) fun x : Fin 2 → ℝ => weightedSum ps ((quad4Gradients x).map fun G => G 1) r := by
  revert ps
  have h : ∀ a b : ℝ, PolyVar (Pi.single 0 1) fun x : Fin 2 → ℝ => quad4PhiGrad a b x 1 := fun a b =>
    ((lin 0 a).smul (b / 4)).congr fun x => by simp only [quad4PhiGrad]; simp; ring
  unfold quad4Gradients
  simp only [List.map_cons, List.map_nil]
  repeat' first
    | exact weightedSum_nil _ _
    | refine weightedSum_cons _ _ _ _ ?_ ?_
    | exact h _ _

theorem quad4_det (ps : List (Point 2 ℝ)) : PolyVar (fun _ => 1) fun x : Fin 2 → ℝ =>
    (Matrix.of fun (r c : Fin 2) => weightedSum ps ((quad4Gradients x).map fun G => G c) r).det := by
  have h := (((quad4_column0 ps 0).mul (quad4_column1 ps 1)).mono (w := fun _ => 1) (by decide)).sub
    (((quad4_column1 ps 0).mul (quad4_column0 ps 1)).mono (by decide))
  exact h.congr fun x => by rw [Matrix.det_fin_two]; rfl

end Fenris.Canonical
