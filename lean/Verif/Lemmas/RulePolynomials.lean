import Verif.Lemmas.UnisolventChecks
import Verif.Lemmas.Canonical
import Verif.Spec.Canonical
import Verif.Props.ShippedRules
import Mathlib.MeasureTheory.Integral.IntervalIntegral.FundThmCalculus
import Mathlib.Topology.Algebra.Polynomial
/-! # The canonical rules separate the polynomials of the elements -/
set_option autoImplicit false

namespace Fenris.Canonical
open ShippedRules Spec
open scoped Polynomial

/-! ## Rules of triangles and tetrahedra -/

section
variable {d : Nat}

theorem fixedRule_points (f : RuleFile) : (fixedRule ℝ d (f.rule ℝ)).2 = f.rows.map (rowPoint d f) := by
  simp only [fixedRule, RuleFile.rule, List.map_map]
  rfl

/-- A combination of polynomials of degree at most `k` that vanishes at the points of a file that passes the check vanishes. -/
theorem vanish_total {k : Nat} {f : RuleFile} {L : List (List Int)} (h : separates d k f L = true) {ι : Type} (φ : ι → (Fin d → ℝ) → ℝ) {B : ℝ}
    (hφ : ∀ I, PolyBd k B (φ I)) (v : ι → ℝ) (s : Finset ι)
    (hz : ∀ x ∈ (fixedRule ℝ d (f.rule ℝ)).2, ∑ I ∈ s, φ I x * v I = 0) (x : Fin d → ℝ) : ∑ I ∈ s, φ I x * v I = 0 := by
  choose p h1 _ h3 using hφ
  have hev : ∀ x, ∑ I ∈ s, φ I x * v I = MvPolynomial.eval x (∑ I ∈ s, p I * MvPolynomial.C (v I)) := by
    intro x
    rw [map_sum]
    refine Finset.sum_congr rfl fun I _ => ?_
    rw [MvPolynomial.eval_mul, MvPolynomial.eval_C, h3]
  have h0 : ∑ I ∈ s, p I * MvPolynomial.C (v I) = 0 := by
    refine eq_zero_of_separates h _ ?_ fun row hrow => ?_
    · refine (MvPolynomial.totalDegree_finset_sum s _).trans (Finset.sup_le fun I _ => ?_)
      refine (MvPolynomial.totalDegree_mul _ _).trans ?_
      rw [MvPolynomial.totalDegree_C, Nat.add_zero]
      exact h1 I
    · rw [← hev]
      exact hz _ (by rw [fixedRule_points]; exact List.mem_map_of_mem hrow)
  rw [hev, h0, map_zero]

/-- A combination of polynomials of degree at most `n` in each variable that vanishes on a grid with more than `n` points along each axis
vanishes. -/
theorem vanish_grid {n : Nat} (S : Finset ℝ) (hS : n < S.card) {ι : Type} (φ : ι → (Fin d → ℝ) → ℝ)
    (hφ : ∀ I, PolyVar (fun _ => n) (φ I)) (v : ι → ℝ) (s : Finset ι)
    (hz : ∀ x : Fin d → ℝ, (∀ i, x i ∈ S) → ∑ I ∈ s, φ I x * v I = 0) (x : Fin d → ℝ) : ∑ I ∈ s, φ I x * v I = 0 := by
  have hp : PolyVar (fun _ : Fin d => n) fun x => ∑ I ∈ s, φ I x * v I :=
    PolyVar.sum s (fun I x => φ I x * v I) fun I _ => ((hφ I).smul (v I)).congr fun x => mul_comm _ _
  obtain ⟨p, h1, h2⟩ := hp
  beta_reduce at h2
  have h0 : p = 0 := MvPolynomial.eq_zero_of_eval_zero_at_prod_finset p (fun _ => S) (fun i => lt_of_le_of_lt (h1 i) hS) fun x hx => by
    rw [← h2]
    exact hz x hx
  rw [h2, h0, map_zero]

end

/-! ## Gauss rules -/

private theorem zipWith_sum {α β : Type} (f : α → β → ℝ) (as : List α) (bs : List β) (h : as.length = bs.length) :
    (List.zipWith f as bs).sum = ∑ k : Fin bs.length, f (as[(k : Nat)]'(by rw [h]; exact k.2)) bs[k] := by
  rw [← Fin.sum_univ_getElem]
  apply Fintype.sum_equiv (finCongr (by simp [h]))
  intro k
  simp

private theorem square_integral_pos (S : Finset ℝ) : 0 < ∫ x in (-1 : ℝ)..1, (∏ a ∈ S, (Polynomial.X - Polynomial.C a) ^ 2 : ℝ[X]).eval x := by
  have hev : ∀ x : ℝ, (∏ a ∈ S, (Polynomial.X - Polynomial.C a) ^ 2 : ℝ[X]).eval x = ∏ a ∈ S, (x - a) ^ 2 := fun x => by
    rw [Polynomial.eval_prod]
    simp
  apply intervalIntegral.integral_pos (by norm_num)
  · exact (Polynomial.continuous _).continuousOn
  · intro x _
    rw [hev]
    exact Finset.prod_nonneg fun _ _ => sq_nonneg _
  · obtain ⟨c, hc, hcS⟩ := (Set.Icc_infinite (show (-1 : ℝ) < 1 by norm_num)).exists_notMem_finset S
    refine ⟨c, hc, ?_⟩
    rw [hev]
    exact Finset.prod_pos fun a ha => by
      have : c - a ≠ 0 := sub_ne_zero.2 fun h => hcS (h ▸ ha)
      positivity

private theorem square_natDegree (S : Finset ℝ) : (∏ a ∈ S, (Polynomial.X - Polynomial.C a) ^ 2 : ℝ[X]).natDegree = 2 * S.card := by
  rw [Polynomial.natDegree_prod _ _ fun a _ => pow_ne_zero _ (Polynomial.X_sub_C_ne_zero a)]
  simp only [Polynomial.natDegree_pow, Polynomial.natDegree_X_sub_C]
  rw [Finset.sum_const, smul_eq_mul, mul_one, mul_comm]

/-- A Gauss rule has at least `n` different points. -/
theorem gauss_card {n : Nat} {ws : List ℝ} {ps : List (Fin 1 → ℝ)} (h : IsGaussRule n ws ps) : n ≤ (ps.map fun x => x 0).toFinset.card := by
  by_contra hlt
  set S := (ps.map fun x => x 0).toFinset with hS
  have he := h.exact (∏ a ∈ S, (Polynomial.X - Polynomial.C a) ^ 2) (by rw [square_natDegree]; omega)
  have hpos := square_integral_pos S
  rw [← he, zipWith_sum _ _ _ h.length] at hpos
  refine absurd hpos (not_lt.2 (le_of_eq (Finset.sum_eq_zero fun k _ => ?_)))
  have hk : ps[k] 0 ∈ S := by
    rw [hS, List.mem_toFinset]
    exact List.mem_map.2 ⟨_, List.getElem_mem _, rfl⟩
  rw [Polynomial.eval_prod, Finset.prod_eq_zero hk (by simp), mul_zero]

/-- The weights of a Gauss rule with `n` points are positive. -/
theorem gauss_weights {n : Nat} {ws : List ℝ} {ps : List (Fin 1 → ℝ)} (h : IsGaussRule n ws ps) (hl : ws.length = n) : ∀ w ∈ ws, 0 < w := by
  have hn : ps.length = n := h.length.symm.trans hl
  have hnd : (ps.map fun x => x 0).Nodup := by
    rw [← Multiset.coe_nodup, ← Multiset.toFinset_card_eq_card_iff_nodup]
    refine le_antisymm (Multiset.toFinset_card_le _) ?_
    rw [Multiset.coe_card, List.length_map, hn]
    exact gauss_card h
  intro w hw
  obtain ⟨k, hk, rfl⟩ := List.mem_iff_getElem.1 hw
  have hk' : k < ps.length := h.length ▸ hk
  set S := (ps.map fun x => x 0).toFinset.erase (ps[k] 0) with hS
  have hmem : ps[k] 0 ∈ (ps.map fun x => x 0).toFinset := List.mem_toFinset.2 (List.mem_map.2 ⟨_, List.getElem_mem _, rfl⟩)
  have hcard : S.card + 1 = n := by
    rw [hS, Finset.card_erase_add_one hmem, List.toFinset_card_of_nodup hnd, List.length_map, hn]
  have he := h.exact (∏ a ∈ S, (Polynomial.X - Polynomial.C a) ^ 2) (by rw [square_natDegree]; omega)
  have hpos := square_integral_pos S
  rw [← he, zipWith_sum _ _ _ h.length, Finset.sum_eq_single (⟨k, hk'⟩ : Fin ps.length)] at hpos
  · have hev : 0 ≤ (∏ a ∈ S, (Polynomial.X - Polynomial.C a) ^ 2 : ℝ[X]).eval (ps[k] 0) := by
      rw [Polynomial.eval_prod]
      exact Finset.prod_nonneg fun a _ => by simp; positivity
    exact pos_of_mul_pos_left hpos hev
  · intro j _ hj
    have hjS : ps[j] 0 ∈ S := by
      rw [hS, Finset.mem_erase]
      refine ⟨fun heq => hj ?_, List.mem_toFinset.2 (List.mem_map.2 ⟨_, List.getElem_mem _, rfl⟩)⟩
      have := (List.nodup_iff_injective_getElem.1 hnd) (a₁ := ⟨j, by simp⟩) (a₂ := ⟨k, by simpa using hk'⟩) (by simpa using heq)
      exact Fin.ext (by simpa using this)
    rw [Polynomial.eval_prod, Finset.prod_eq_zero hjS (by simp), mul_zero]
  · intro hn
    exact absurd (Finset.mem_univ _) hn

theorem quadrilateral_grid {rule : Quadrature.Rule 1 ℝ} (h : rule.1.length = rule.2.length) (x : Fin 2 → ℝ)
    (hx : ∀ i, x i ∈ (rule.2.map fun y => y 0).toFinset) : x ∈ (Quadrature.quadrilateral rule).2 := by
  have hz : ∀ i, ∃ q ∈ rule.1.zip rule.2, q.2 0 = x i := by
    intro i
    obtain ⟨y, hy, hyx⟩ := List.mem_map.1 (List.mem_toFinset.1 (hx i))
    rw [← List.map_snd_zip (l₁ := rule.1) (l₂ := rule.2) (by omega)] at hy
    obtain ⟨q, hq, rfl⟩ := List.mem_map.1 hy
    exact ⟨q, hq, hyx⟩
  obtain ⟨q0, h0, e0⟩ := hz 0
  obtain ⟨q1, h1, e1⟩ := hz 1
  have hxe : x = ![q0.2 0, q1.2 0] := by
    ext i
    fin_cases i <;> simp [e0, e1]
  rw [hxe]
  unfold Quadrature.quadrilateral
  refine List.mem_map.2 ⟨_, List.mem_flatMap.2 ⟨q0, h0, List.mem_map.2 ⟨q1, h1, rfl⟩⟩, rfl⟩

theorem hexahedron_grid {rule : Quadrature.Rule 1 ℝ} (h : rule.1.length = rule.2.length) (x : Fin 3 → ℝ)
    (hx : ∀ i, x i ∈ (rule.2.map fun y => y 0).toFinset) : x ∈ (Quadrature.hexahedron rule).2 := by
  have hz : ∀ i, ∃ q ∈ rule.1.zip rule.2, q.2 0 = x i := by
    intro i
    obtain ⟨y, hy, hyx⟩ := List.mem_map.1 (List.mem_toFinset.1 (hx i))
    rw [← List.map_snd_zip (l₁ := rule.1) (l₂ := rule.2) (by omega)] at hy
    obtain ⟨q, hq, rfl⟩ := List.mem_map.1 hy
    exact ⟨q, hq, hyx⟩
  obtain ⟨q0, h0, e0⟩ := hz 0
  obtain ⟨q1, h1, e1⟩ := hz 1
  obtain ⟨q2, h2, e2⟩ := hz 2
  have hxe : x = ![q0.2 0, q1.2 0, q2.2 0] := by
    ext i
    fin_cases i <;> simp [e0, e1, e2]
  rw [hxe]
  unfold Quadrature.hexahedron
  refine List.mem_map.2 ⟨_, List.mem_flatMap.2 ⟨q0, h0, List.mem_flatMap.2 ⟨q1, h1, List.mem_map.2 ⟨q2, h2, rfl⟩⟩⟩, rfl⟩

theorem quadrilateral_positive {rule : Quadrature.Rule 1 ℝ} (h : ∀ w ∈ rule.1, 0 < w) : ∀ w ∈ (Quadrature.quadrilateral rule).1, 0 < w := by
  intro w hw
  obtain ⟨q, hq, rfl⟩ := List.mem_map.1 hw
  obtain ⟨q0, h0, hq⟩ := List.mem_flatMap.1 hq
  obtain ⟨q1, h1, rfl⟩ := List.mem_map.1 hq
  exact mul_pos (h _ (List.of_mem_zip h0).1) (h _ (List.of_mem_zip h1).1)

theorem hexahedron_positive {rule : Quadrature.Rule 1 ℝ} (h : ∀ w ∈ rule.1, 0 < w) : ∀ w ∈ (Quadrature.hexahedron rule).1, 0 < w := by
  intro w hw
  obtain ⟨q, hq, rfl⟩ := List.mem_map.1 hw
  obtain ⟨q0, h0, hq⟩ := List.mem_flatMap.1 hq
  obtain ⟨q1, h1, hq⟩ := List.mem_flatMap.1 hq
  obtain ⟨q2, h2, rfl⟩ := List.mem_map.1 hq
  exact mul_pos (mul_pos (h _ (List.of_mem_zip h0).1) (h _ (List.of_mem_zip h1).1)) (h _ (List.of_mem_zip h2).1)

/-! ## The canonical rules -/

private theorem triangle_rule {s k : Nat} {f : RuleFile} {L : List (List Int)} (hs : s ≤ 20) (hsel : triangle ℝ s = some (fixedRule ℝ 2 (f.rule ℝ)))
    (hsep : separates 2 k f L = true) :
    ∃ rule : Quadrature.Rule 2 ℝ, triangle ℝ s = some rule ∧ rule.1.length = rule.2.length ∧ (∀ w ∈ rule.1, 0 < w) ∧
      ∀ {ι : Type} (φ : ι → (Fin 2 → ℝ) → ℝ) (B : ℝ), (∀ I, PolyBd k B (φ I)) → ∀ (v : ι → ℝ) (s : Finset ι),
        (∀ x ∈ rule.2, ∑ I ∈ s, φ I x * v I = 0) → ∀ x, ∑ I ∈ s, φ I x * v I = 0 := by
  obtain ⟨rule, h1, h2, -⟩ := (C87_triangle s).1 hs
  rw [hsel] at h1
  obtain rfl := Option.some.inj h1
  exact ⟨_, hsel, h2.length, h2.positive, fun φ B hφ v s hz x => vanish_total hsep φ hφ v s hz x⟩

private theorem tetrahedron_rule {s k : Nat} {f : RuleFile} {L : List (List Int)} (hs : s ≤ 10)
    (hsel : tetrahedron ℝ s = some (fixedRule ℝ 3 (f.rule ℝ))) (hsep : separates 3 k f L = true) :
    ∃ rule : Quadrature.Rule 3 ℝ, tetrahedron ℝ s = some rule ∧ rule.1.length = rule.2.length ∧ (∀ w ∈ rule.1, 0 < w) ∧
      ∀ {ι : Type} (φ : ι → (Fin 3 → ℝ) → ℝ) (B : ℝ), (∀ I, PolyBd k B (φ I)) → ∀ (v : ι → ℝ) (s : Finset ι),
        (∀ x ∈ rule.2, ∑ I ∈ s, φ I x * v I = 0) → ∀ x, ∑ I ∈ s, φ I x * v I = 0 := by
  obtain ⟨rule, h1, h2, -⟩ := (C87_tetrahedron s).1 hs
  rw [hsel] at h1
  obtain rfl := Option.some.inj h1
  exact ⟨_, hsel, h2.length, h2.positive, fun φ B hφ v s hz x => vanish_total hsep φ hφ v s hz x⟩

private theorem quad_rule {n : Nat} {gauss : Nat → Quadrature.Rule 1 ℝ} (h : IsGaussRule (n + 1) (gauss (n + 1)).1 (gauss (n + 1)).2)
    (hl : (gauss (n + 1)).1.length = n + 1) :
    (quadrilateralGauss gauss (n + 1)).1.length = (quadrilateralGauss gauss (n + 1)).2.length ∧ (∀ w ∈ (quadrilateralGauss gauss (n + 1)).1, 0 < w) ∧
      ∀ {ι : Type} (φ : ι → (Fin 2 → ℝ) → ℝ), (∀ I, PolyVar (fun _ => n) (φ I)) → ∀ (v : ι → ℝ) (s : Finset ι),
        (∀ x ∈ (quadrilateralGauss gauss (n + 1)).2, ∑ I ∈ s, φ I x * v I = 0) → ∀ x, ∑ I ∈ s, φ I x * v I = 0 :=
  ⟨by simp [quadrilateralGauss, Quadrature.quadrilateral], quadrilateral_positive (gauss_weights h hl), fun φ hφ v s hz x =>
    vanish_grid _ (gauss_card h) φ hφ v s (fun x hx => hz x (quadrilateral_grid h.length x hx)) x⟩

private theorem hex_rule {n : Nat} {gauss : Nat → Quadrature.Rule 1 ℝ} (h : IsGaussRule (n + 1) (gauss (n + 1)).1 (gauss (n + 1)).2)
    (hl : (gauss (n + 1)).1.length = n + 1) :
    (hexahedronGauss gauss (n + 1)).1.length = (hexahedronGauss gauss (n + 1)).2.length ∧ (∀ w ∈ (hexahedronGauss gauss (n + 1)).1, 0 < w) ∧
      ∀ {ι : Type} (φ : ι → (Fin 3 → ℝ) → ℝ), (∀ I, PolyVar (fun _ => n) (φ I)) → ∀ (v : ι → ℝ) (s : Finset ι),
        (∀ x ∈ (hexahedronGauss gauss (n + 1)).2, ∑ I ∈ s, φ I x * v I = 0) → ∀ x, ∑ I ∈ s, φ I x * v I = 0 :=
  ⟨by simp [hexahedronGauss, Quadrature.hexahedron], hexahedron_positive (gauss_weights h hl), fun φ hφ v s hz x =>
    vanish_grid _ (gauss_card h) φ hφ v s (fun x hx => hz x (hexahedron_grid h.length x hx)) x⟩

private theorem select_tri1 : triangle ℝ 1 = some (fixedRule ℝ 2 (tri1.rule ℝ)) := by
  unfold triangle select
  rw [Polyquad.selectMinimum]
  rfl

private theorem select_tri2 : triangle ℝ 2 = some (fixedRule ℝ 2 (tri2.rule ℝ)) := by
  unfold triangle select
  rw [Polyquad.selectMinimum]
  rfl

private theorem select_tri4 : triangle ℝ 4 = some (fixedRule ℝ 2 (tri4.rule ℝ)) := by
  unfold triangle select
  rw [Polyquad.selectMinimum]
  rfl

private theorem select_tet1 : tetrahedron ℝ 1 = some (fixedRule ℝ 3 (tet1.rule ℝ)) := by
  unfold tetrahedron select
  rw [Polyquad.selectMinimum]
  rfl

private theorem select_tet2 : tetrahedron ℝ 2 = some (fixedRule ℝ 3 (tet2.rule ℝ)) := by
  unfold tetrahedron select
  rw [Polyquad.selectMinimum]
  rfl

private theorem select_tet5 : tetrahedron ℝ 4 = some (fixedRule ℝ 3 (tet5.rule ℝ)) := by
  unfold tetrahedron select
  rw [Polyquad.selectMinimum]
  change Option.map _ (if 4 ≤ (table ℝ tetFiles).max then Polyquad.selectMinimum (table ℝ tetFiles) 5 else none) = _
  rw [if_pos (Nat.le_of_ble_eq_true rfl), Polyquad.selectMinimum]
  rfl

private theorem select_tet6 : tetrahedron ℝ 6 = some (fixedRule ℝ 3 (tet6.rule ℝ)) := by
  unfold tetrahedron select
  rw [Polyquad.selectMinimum]
  rfl

/-- The canonical mass rules have positive weights, and a function of the element that vanishes at their points vanishes. -/
theorem massRule_separates (gauss : Nat → Quadrature.Rule 1 ℝ) (h2 : IsGaussRule 2 (gauss 2).1 (gauss 2).2) (hl2 : (gauss 2).1.length = 2)
    (h3 : IsGaussRule 3 (gauss 3).1 (gauss 3).2) (hl3 : (gauss 3).1.length = 3) (e : Element.Kind) (he : e ≠ .segment2) :
    ∃ rule, massRule gauss e = some rule ∧ rule.1.length = rule.2.length ∧ (∀ w ∈ rule.1, 0 < w) ∧
      ∀ (v : Nat → ℝ) (s : Finset Nat), (∀ x ∈ rule.2, ∑ I ∈ s, (Element.basis e x)[I]?.getD 0 * v I = 0) →
        ∀ x, ∑ I ∈ s, (Element.basis e x)[I]?.getD 0 * v I = 0 := by
  cases e with
  | segment2 => exact absurd rfl he
  | tri3 =>
    obtain ⟨rule, h1, hl, hp, hsep⟩ := triangle_rule (s := 2) (by norm_num) select_tri2 separates_tri2
    exact ⟨rule, h1, hl, hp, hsep _ _ tri3_basis⟩
  | tri6 =>
    obtain ⟨rule, h1, hl, hp, hsep⟩ := triangle_rule (s := 4) (by norm_num) select_tri4 separates_tri4
    exact ⟨rule, h1, hl, hp, hsep _ _ tri6_basis⟩
  | tet4 =>
    obtain ⟨rule, h1, hl, hp, hsep⟩ := tetrahedron_rule (s := 2) (by norm_num) select_tet2 separates_tet2
    exact ⟨rule, h1, hl, hp, hsep _ _ tet4_basis⟩
  | tet10 =>
    obtain ⟨rule, h1, hl, hp, hsep⟩ := tetrahedron_rule (s := 4) (by norm_num) select_tet5 separates_tet5
    exact ⟨rule, h1, hl, hp, hsep _ _ tet10_basis⟩
  | tet20 =>
    obtain ⟨rule, h1, hl, hp, hsep⟩ := tetrahedron_rule (s := 6) (by norm_num) select_tet6 separates_tet6
    exact ⟨rule, h1, hl, hp, hsep _ _ tet20_basis⟩
  | quad4 => exact ⟨_, rfl, (quad_rule h2 hl2).1, (quad_rule h2 hl2).2.1, (quad_rule h2 hl2).2.2 _ quad4_basis⟩
  | quad9 => exact ⟨_, rfl, (quad_rule h3 hl3).1, (quad_rule h3 hl3).2.1, (quad_rule h3 hl3).2.2 _ quad9_basis⟩
  | hex8 => exact ⟨_, rfl, (hex_rule h2 hl2).1, (hex_rule h2 hl2).2.1, (hex_rule h2 hl2).2.2 _ hex8_basis⟩
  | hex20 => exact ⟨_, rfl, (hex_rule h3 hl3).1, (hex_rule h3 hl3).2.1, (hex_rule h3 hl3).2.2 _ hex20_basis⟩
  | hex27 => exact ⟨_, rfl, (hex_rule h3 hl3).1, (hex_rule h3 hl3).2.1, (hex_rule h3 hl3).2.2 _ hex27_basis⟩

/-- The canonical stiffness rules have positive weights, and a combination of the components of the gradients of the basis
functions that vanishes at their points vanishes. -/
theorem stiffnessRule_separates (gauss : Nat → Quadrature.Rule 1 ℝ) (h2 : IsGaussRule 2 (gauss 2).1 (gauss 2).2) (hl2 : (gauss 2).1.length = 2)
    (h3 : IsGaussRule 3 (gauss 3).1 (gauss 3).2) (hl3 : (gauss 3).1.length = 3) (e : Element.Kind) (he : e ≠ .segment2) :
    ∃ rule, stiffnessRule gauss e = some rule ∧ rule.1.length = rule.2.length ∧ (∀ w ∈ rule.1, 0 < w) ∧
      ∀ (v : Nat × Fin e.dim → ℝ) (s : Finset (Nat × Fin e.dim)),
        (∀ x ∈ rule.2, ∑ I ∈ s, (Element.gradients e x)[I.1]?.getD 0 I.2 * v I = 0) →
        ∀ x, ∑ I ∈ s, (Element.gradients e x)[I.1]?.getD 0 I.2 * v I = 0 := by
  cases e with
  | segment2 => exact absurd rfl he
  | tri3 =>
    obtain ⟨rule, h1, hl, hp, hsep⟩ := triangle_rule (s := 1) (by norm_num) select_tri1 separates_tri1
    exact ⟨rule, h1, hl, hp, hsep _ _ (fun I => tri3_gradients I.1 I.2)⟩
  | tri6 =>
    obtain ⟨rule, h1, hl, hp, hsep⟩ := triangle_rule (s := 2) (by norm_num) select_tri2 separates_tri2
    exact ⟨rule, h1, hl, hp, hsep _ _ (fun I => tri6_gradients I.1 I.2)⟩
  | tet4 =>
    obtain ⟨rule, h1, hl, hp, hsep⟩ := tetrahedron_rule (s := 1) (by norm_num) select_tet1 separates_tet1
    exact ⟨rule, h1, hl, hp, hsep _ _ (fun I => tet4_gradients I.1 I.2)⟩
  | tet10 =>
    obtain ⟨rule, h1, hl, hp, hsep⟩ := tetrahedron_rule (s := 2) (by norm_num) select_tet2 separates_tet2
    exact ⟨rule, h1, hl, hp, hsep _ _ (fun I => tet10_gradients I.1 I.2)⟩
  | tet20 =>
    obtain ⟨rule, h1, hl, hp, hsep⟩ := tetrahedron_rule (s := 4) (by norm_num) select_tet5 separates_tet5
    exact ⟨rule, h1, hl, hp, hsep _ _ (fun I => tet20_gradients I.1 I.2)⟩
  | quad4 => exact ⟨_, rfl, (quad_rule h2 hl2).1, (quad_rule h2 hl2).2.1, (quad_rule h2 hl2).2.2 _ (fun I => quad4_gradients I.1 I.2)⟩
  | quad9 => exact ⟨_, rfl, (quad_rule h3 hl3).1, (quad_rule h3 hl3).2.1, (quad_rule h3 hl3).2.2 _ (fun I => quad9_gradients I.1 I.2)⟩
  | hex8 => exact ⟨_, rfl, (hex_rule h2 hl2).1, (hex_rule h2 hl2).2.1, (hex_rule h2 hl2).2.2 _ (fun I => hex8_gradients I.1 I.2)⟩
  | hex20 => exact ⟨_, rfl, (hex_rule h3 hl3).1, (hex_rule h3 hl3).2.1, (hex_rule h3 hl3).2.2 _ (fun I => hex20_gradients I.1 I.2)⟩
  | hex27 => exact ⟨_, rfl, (hex_rule h3 hl3).1, (hex_rule h3 hl3).2.1, (hex_rule h3 hl3).2.2 _ (fun I => hex27_gradients I.1 I.2)⟩

end Fenris.Canonical
