import Verif.Model.ShippedRules
import Verif.Spec.ShippedRules
import Verif.Lemmas.ShippedChecks.Tri
import Verif.Lemmas.ShippedChecks.Quad
import Verif.Lemmas.ShippedChecks.Tet
import Verif.Lemmas.ShippedChecks.Hex
import Verif.Lemmas.ShippedChecks.Pri
import Verif.Lemmas.ShippedChecks.Pyr
import Verif.Props.Polyquad
/-! # C87: the quadrature rules that are shipped with the library -/
set_option autoImplicit false

namespace Fenris.ShippedRules
open Spec

/-! ### Selection -/

private theorem le_maxStrength (rules : List (Nat × Polyquad.Rule ℝ)) : ∀ p ∈ rules, p.1 ≤ (Polyquad.maxStrength rules).getD 0 := by
  induction rules with
  | nil => intro p hp; cases hp
  | cons r rs ih =>
    intro p hp
    simp only [Polyquad.maxStrength]
    cases hm : Polyquad.maxStrength rs with
    | none =>
      rw [hm] at ih
      rcases List.mem_cons.1 hp with rfl | hp
      · simp
      · have := ih p hp
        simp only [Option.getD_none] at this
        simp only [Option.getD_some]
        omega
    | some k =>
      rw [hm] at ih
      rcases List.mem_cons.1 hp with rfl | hp
      · simp
      · have := ih p hp
        simp only [Option.getD_some] at this ⊢
        omega

private theorem select_rule {d : Nat} (I : ((Fin d → ℝ) → ℝ) → ℝ) (domain : (Fin d → ℝ) → Prop) (files : List RuleFile)
    (hord : (files.map RuleFile.strength).Nodup) (hmono : ∀ f ∈ files, ∀ g ∈ files, f.strength ≤ g.strength → f.size ≤ g.size)
    (hgood : ∀ f ∈ files, (fixedRule ℝ d (f.rule ℝ)).1.length = f.size ∧
      IsRule I domain f.strength (fixedRule ℝ d (f.rule ℝ)).1 (fixedRule ℝ d (f.rule ℝ)).2) (s : Nat) :
    ((∃ f ∈ files, s ≤ f.strength) → ∃ rule, select ℝ d files s = some rule ∧ IsRule I domain s rule.1 rule.2 ∧
      ∀ f ∈ files, s ≤ f.strength → rule.1.length ≤ f.rows.length) ∧
    ((∀ f ∈ files, f.strength < s) → select ℝ d files s = none) := by
  have hnd : ((table ℝ files).arms.map Prod.fst).Nodup := by
    have : (table ℝ files).arms.map Prod.fst = files.map RuleFile.strength := by simp [table, arms, Function.comp_def]
    rwa [this]
  obtain ⟨h1, h2⟩ := Polyquad.select_spec (table ℝ files) hnd (le_maxStrength _) _ s rfl
  constructor
  · rintro ⟨f, hf, hs⟩
    cases hsel : Polyquad.selectMinimum (table ℝ files) s with
    | none =>
      have := h2.mp hsel (f.strength, f.rule ℝ) (List.mem_map.mpr ⟨f, hf, rfl⟩)
      exact absurd this (by simpa using hs)
    | some r =>
      obtain ⟨m, hm, hsm, hmin⟩ := (h1 r).mp hsel
      obtain ⟨g, hg, hgr⟩ := List.mem_map.mp hm
      obtain ⟨rfl, rfl⟩ := Prod.mk.inj hgr
      obtain ⟨g1, g2⟩ := hgood g hg
      refine ⟨_, by rw [select, hsel, Option.map_some], ⟨g2.length, g2.positive, g2.inside, fun p hp => g2.accurate p (hp.trans hsm)⟩, ?_⟩
      intro f' hf' hs'
      have hle : g.strength ≤ f'.strength := hmin _ (List.mem_map.mpr ⟨f', hf', rfl⟩) hs'
      have hlen : f'.rows.length = f'.size := by
        rw [← (hgood f' hf').1]
        simp [fixedRule, RuleFile.rule]
      rw [g1, hlen]
      exact hmono g hg f' hf' hle
  · intro h
    rw [select, h2.mpr ?_, Option.map_none]
    intro p hp
    obtain ⟨f, hf, rfl⟩ := List.mem_map.mp hp
    exact h f hf

/-- C87: for every strength up to 20 `polyquad::triangle` returns a rule for the reference triangle: with positive weights and points in the
triangle, and every polynomial of total degree at most the strength is integrated up to `10^-36` times the sum of its coefficients. No
shipped rule of sufficient strength has fewer points. There is no rule of larger strength. -/
theorem C87_triangle (s : Nat) :
    (s ≤ 20 → ∃ rule, triangle ℝ s = some rule ∧ IsRule Fenris.Spec.triangleIntegral InTriangle s rule.1 rule.2 ∧
      ∀ f ∈ triFiles, s ≤ f.strength → rule.1.length ≤ f.rows.length) ∧
    (20 < s → triangle ℝ s = none) := by
  obtain ⟨h1, h2⟩ := select_rule Fenris.Spec.triangleIntegral InTriangle triFiles (by decide +kernel) (by decide +kernel)
    (fun f hf => tri_rule f (check_triFiles f hf)) s
  refine ⟨fun hs => h1 ⟨tri20, by simp [triFiles], hs⟩, fun hs => h2 fun f hf => ?_⟩
  have : ∀ f ∈ triFiles, f.strength ≤ 20 := by decide +kernel
  exact lt_of_le_of_lt (this f hf) hs

/-- C87: the same for `polyquad::quadrilateral`, strengths up to 21 and the reference square. -/
theorem C87_quadrilateral (s : Nat) :
    (s ≤ 21 → ∃ rule, quadrilateral ℝ s = some rule ∧ IsRule Fenris.Spec.squareIntegral InSquare s rule.1 rule.2 ∧
      ∀ f ∈ quadFiles, s ≤ f.strength → rule.1.length ≤ f.rows.length) ∧
    (21 < s → quadrilateral ℝ s = none) := by
  obtain ⟨h1, h2⟩ := select_rule Fenris.Spec.squareIntegral InSquare quadFiles (by decide +kernel) (by decide +kernel)
    (fun f hf => quad_rule f (check_quadFiles f hf)) s
  refine ⟨fun hs => h1 ⟨quad21, by simp [quadFiles], hs⟩, fun hs => h2 fun f hf => ?_⟩
  have : ∀ f ∈ quadFiles, f.strength ≤ 21 := by decide +kernel
  exact lt_of_le_of_lt (this f hf) hs

/-- C87: the same for `polyquad::tetrahedron`, strengths up to 10 and the reference tetrahedron. -/
theorem C87_tetrahedron (s : Nat) :
    (s ≤ 10 → ∃ rule, tetrahedron ℝ s = some rule ∧ IsRule tetrahedronIntegral InTetrahedron s rule.1 rule.2 ∧
      ∀ f ∈ tetFiles, s ≤ f.strength → rule.1.length ≤ f.rows.length) ∧
    (10 < s → tetrahedron ℝ s = none) := by
  obtain ⟨h1, h2⟩ := select_rule tetrahedronIntegral InTetrahedron tetFiles (by decide +kernel) (by decide +kernel)
    (fun f hf => tet_rule f (check_tetFiles f hf)) s
  refine ⟨fun hs => h1 ⟨tet10, by simp [tetFiles], hs⟩, fun hs => h2 fun f hf => ?_⟩
  have : ∀ f ∈ tetFiles, f.strength ≤ 10 := by decide +kernel
  exact lt_of_le_of_lt (this f hf) hs

/-- C87: the same for `polyquad::hexahedron`, strengths up to 11 and the reference cube. -/
theorem C87_hexahedron (s : Nat) :
    (s ≤ 11 → ∃ rule, hexahedron ℝ s = some rule ∧ IsRule Fenris.Spec.cubeIntegral InCube s rule.1 rule.2 ∧
      ∀ f ∈ hexFiles, s ≤ f.strength → rule.1.length ≤ f.rows.length) ∧
    (11 < s → hexahedron ℝ s = none) := by
  obtain ⟨h1, h2⟩ := select_rule Fenris.Spec.cubeIntegral InCube hexFiles (by decide +kernel) (by decide +kernel)
    (fun f hf => hex_rule f (check_hexFiles f hf)) s
  refine ⟨fun hs => h1 ⟨hex11, by simp [hexFiles], hs⟩, fun hs => h2 fun f hf => ?_⟩
  have : ∀ f ∈ hexFiles, f.strength ≤ 11 := by decide +kernel
  exact lt_of_le_of_lt (this f hf) hs

/-- C87: the same for `polyquad::prism`, strengths up to 10 and the reference prism. -/
theorem C87_prism (s : Nat) :
    (s ≤ 10 → ∃ rule, prism ℝ s = some rule ∧ IsRule prismIntegral InPrism s rule.1 rule.2 ∧
      ∀ f ∈ priFiles, s ≤ f.strength → rule.1.length ≤ f.rows.length) ∧
    (10 < s → prism ℝ s = none) := by
  obtain ⟨h1, h2⟩ := select_rule prismIntegral InPrism priFiles (by decide +kernel) (by decide +kernel)
    (fun f hf => pri_rule f (check_priFiles f hf)) s
  refine ⟨fun hs => h1 ⟨pri10, by simp [priFiles], hs⟩, fun hs => h2 fun f hf => ?_⟩
  have : ∀ f ∈ priFiles, f.strength ≤ 10 := by decide +kernel
  exact lt_of_le_of_lt (this f hf) hs

/-- C87: the same for `polyquad::pyramid`, strengths up to 10 and the reference pyramid. -/
theorem C87_pyramid (s : Nat) :
    (s ≤ 10 → ∃ rule, pyramid ℝ s = some rule ∧ IsRule pyramidIntegral InPyramid s rule.1 rule.2 ∧
      ∀ f ∈ pyrFiles, s ≤ f.strength → rule.1.length ≤ f.rows.length) ∧
    (10 < s → pyramid ℝ s = none) := by
  obtain ⟨h1, h2⟩ := select_rule pyramidIntegral InPyramid pyrFiles (by decide +kernel) (by decide +kernel)
    (fun f hf => pyr_rule f (check_pyrFiles f hf)) s
  refine ⟨fun hs => h1 ⟨pyr10, by simp [pyrFiles], hs⟩, fun hs => h2 fun f hf => ?_⟩
  have : ∀ f ∈ pyrFiles, f.strength ≤ 10 := by decide +kernel
  exact lt_of_le_of_lt (this f hf) hs

private theorem total_weight {d n : Nat} {I : ((Fin d → ℝ) → ℝ) → ℝ} {domain : (Fin d → ℝ) → Prop} {weights : List ℝ} {points : List (Fin d → ℝ)}
    (hr : IsRule I domain n weights points) : |weights.sum - I fun _ => 1| ≤ 1 / 10 ^ 36 := by
  have := hr.accurate 1 (by simp)
  have e1 : (List.zipWith (fun w x => w * MvPolynomial.eval x (1 : MvPolynomial (Fin d) ℝ)) weights points).sum = weights.sum := by
    congr 1
    simp only [map_one, mul_one]
    have key : ∀ (a : List ℝ) (b : List (Fin d → ℝ)), a.length = b.length → List.zipWith (fun w _ => w) a b = a := by
      intro a
      induction a with
      | nil => intro b _; rfl
      | cons x a ih =>
        intro b hb
        cases b with
        | nil => cases hb
        | cons y b => rw [List.zipWith_cons_cons, ih b (by simpa using hb)]
    exact key _ _ hr.length
  have e3 : coefficientSum (1 : MvPolynomial (Fin d) ℝ) = 1 := by
    rw [coefficientSum, MvPolynomial.support_one, Finset.sum_singleton, MvPolynomial.coeff_zero_one, abs_one]
  rw [e1, e3] at this
  simpa only [map_one] using this

/-- In particular the weights add up to the area of the reference triangle. -/
theorem C87_triangle_area (s : Nat) (hs : s ≤ 20) : ∃ rule, triangle ℝ s = some rule ∧ |rule.1.sum - 2| ≤ 1 / 10 ^ 36 := by
  obtain ⟨rule, h, hr, -⟩ := (C87_triangle s).1 hs
  have e2 : Fenris.Spec.triangleIntegral (fun _ => 1) = 2 := by
    have := tri_monomial 0 0
    simp only [pow_zero, mul_one] at this
    simp only [Fenris.Spec.triangleIntegral, this]
    norm_num [triMonomial, sgn, S]
  exact ⟨rule, h, e2 ▸ total_weight hr⟩

/-- And to the volume of the reference tetrahedron. -/
theorem C87_tetrahedron_volume (s : Nat) (hs : s ≤ 10) : ∃ rule, tetrahedron ℝ s = some rule ∧ |rule.1.sum - 4 / 3| ≤ 1 / 10 ^ 36 := by
  obtain ⟨rule, h, hr, -⟩ := (C87_tetrahedron s).1 hs
  have e2 : tetrahedronIntegral (fun _ => 1) = 4 / 3 := by
    have := exTet_eq 1
    rw [MvPolynomial.support_one, Finset.sum_singleton, MvPolynomial.coeff_zero_one, one_mul] at this
    simp only [map_one] at this
    rw [this]
    have : exTet [(0 : Fin 3 →₀ Nat) 0, (0 : Fin 3 →₀ Nat) 1, (0 : Fin 3 →₀ Nat) 2] = 4 / 3 := by
      change exTet [0, 0, 0] = 4 / 3
      decide +kernel
    rw [this]
    norm_num
  exact ⟨rule, h, e2 ▸ total_weight hr⟩

/-- The rule for strength 3 is the one of strength 4 with 6 points, and it has a point that is not the centre. -/
example : (triangle ℚ 3).map (fun r => r.1.length) = some 6 := by decide +kernel
example : (pyramid ℚ 10).map (fun r => r.1.length) = some 83 := by decide +kernel
example : pyramid ℚ 11 = none := by decide +kernel

end Fenris.ShippedRules
