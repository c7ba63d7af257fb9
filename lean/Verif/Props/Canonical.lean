import Verif.Lemmas.Canonical
import Verif.Spec.Canonical
import Verif.Props.ShippedRules
import Verif.Props.QuadratureGauss
import Verif.Props.ElementAssembly
/-! # C88: the canonical quadratures of the elements integrate mass and stiffness matrices -/
set_option autoImplicit false

namespace Fenris.Canonical
open ShippedRules Spec Local
open Polynomial hiding C

/-! ### Element matrices as sums over a rule -/

section
variable {d : Nat}

/-- The sum of a rule for a function. -/
private noncomputable def ruleSum (rule : Quadrature.Rule d ℝ) (f : (Fin d → ℝ) → ℝ) : ℝ :=
  (List.zipWith (fun w x => w * f x) rule.1 rule.2).sum

private theorem quadSum_zip {Param : Type} (el : VolElement d ℝ) (c : Param) (f : Point d ℝ → Param → ℝ) :
    ∀ (ws : List ℝ) (ps : List (Point d ℝ)), ws.length = ps.length →
      Local.Spec.quadSum el (ws.zip (ps.zip (List.replicate ps.length c))) f =
        (List.zipWith (fun w x => w * (f x c * |(el.jacobian x).det|)) ws ps).sum
  | [], [], _ => rfl
  | w :: ws, p :: ps, h => by
    have ih := quadSum_zip el c f ws ps (by simpa using h)
    simp only [Local.Spec.quadSum, List.length_cons, List.replicate_succ, List.zip_cons_cons, List.map_cons, List.sum_cons,
      List.zipWith_cons_cons] at ih ⊢
    rw [ih]
    ring
  | [], _ :: _, h => by simp at h
  | _ :: _, [], h => by simp at h

private theorem zip_fst {α β : Type} (a : List α) (b : List β) (h : a.length = b.length) : (a.zip b).map (·.1) = a := List.map_fst_zip (by omega)
private theorem zip_snd {α β : Type} (a : List α) (b : List β) (h : a.length = b.length) : (a.zip b).map (·.2) = b := List.map_snd_zip (by omega)

private theorem split_rule {Param : Type} (ws : List ℝ) (ps : List (Point d ℝ)) (data : List Param) (h : ws.length = ps.length)
    (h' : ps.length = data.length) : (ws.zip (ps.zip data)).map (·.1) = ws ∧ (ws.zip (ps.zip data)).map (·.2.1) = ps ∧
      (ws.zip (ps.zip data)).map (·.2.2) = data := by
  have hl : ws.length = (ps.zip data).length := by rw [List.length_zip, ← h', min_self, h]
  refine ⟨zip_fst _ _ hl, ?_, ?_⟩
  · have := congrArg (List.map Prod.fst) (zip_snd ws (ps.zip data) hl)
    rw [List.map_map, zip_fst ps data h'] at this
    exact this
  · have := congrArg (List.map Prod.snd) (zip_snd ws (ps.zip data) hl)
    rw [List.map_map, zip_snd ps data h'] at this
    exact this

private theorem zipWith_smul (c : ℝ) (f : ℝ → (Fin d → ℝ) → ℝ) : ∀ (ws : List ℝ) (ps : List (Fin d → ℝ)),
    (List.zipWith (fun w x => c * f w x) ws ps).sum = c * (List.zipWith f ws ps).sum
  | [], _ => by simp
  | _ :: _, [] => by simp
  | w :: ws, p :: ps => by simp only [List.zipWith_cons_cons, List.sum_cons, zipWith_smul c f ws ps, mul_add]

private theorem mass_entry (el : VolElement d ℝ) (hel : Local.Spec.WellFormed el) (s : Nat) (rule : Quadrature.Rule d ℝ)
    (hl : rule.1.length = rule.2.length) (density : ℝ) (out0 : Mat ℝ) :
    ∃ M, massMatrix el s rule.1 rule.2 (List.replicate rule.2.length density) out0 = some M ∧
      ∀ (I J : Nat) (i j : Fin s), I < el.numNodes → J < el.numNodes → M (s * I + i) (s * J + j) = if i = j then
        density * ruleSum rule (fun x => (el.basis x)[I]?.getD 0 * (el.basis x)[J]?.getD 0 * |(el.jacobian x).det|) else 0 := by
  obtain ⟨h1, h2, h3⟩ := split_rule rule.1 rule.2 (List.replicate rule.2.length density) hl (by simp)
  obtain ⟨M, hM, hMe⟩ := C29_mass_matrix_is_quadrature_sum el hel s (rule.1.zip (rule.2.zip (List.replicate rule.2.length density))) out0
  rw [h1, h2, h3] at hM
  refine ⟨M, hM, fun I J i j hI hJ => ?_⟩
  rw [hMe I J i j hI hJ, quadSum_zip el density _ _ _ hl]
  split
  · rw [ruleSum, ← zipWith_smul]
    congr 2
    funext w x
    ring
  · rfl

private theorem stiffness_entry (el : VolElement d ℝ) (hel : Local.Spec.WellFormed el) (rule : Quadrature.Rule d ℝ)
    (hl : rule.1.length = rule.2.length) (u : List ℝ) (hu : u.length = el.numNodes) (out0 : Mat ℝ)
    (hdet : ∀ x ∈ rule.2, (el.jacobian x).det ≠ 0) :
    ∃ A, ellipticMatrix el (laplace d ℝ) u rule.1 rule.2 (List.replicate rule.2.length ()) out0 = some (.ok A) ∧
      ∀ I J : Nat, I < el.numNodes → J < el.numNodes → A I J = ruleSum rule (fun x =>
        (∑ k, Local.Spec.physGrad (el.jacobian x) ((el.gradients x)[I]?.getD 0) k *
          Local.Spec.physGrad (el.jacobian x) ((el.gradients x)[J]?.getD 0) k) * |(el.jacobian x).det|) := by
  obtain ⟨h1, h2, h3⟩ := split_rule rule.1 rule.2 (List.replicate rule.2.length ()) hl (by simp)
  obtain ⟨A, -, -, hA, -, -, hAe, -⟩ := C28_laplace_matrix_vector_energy el hel u hu
    (rule.1.zip (rule.2.zip (List.replicate rule.2.length ())))
    (fun q hq => hdet q.2.1 (List.of_mem_zip (List.of_mem_zip hq).2).1) out0 fun _ => 0
  rw [h1, h2, h3] at hA
  refine ⟨A, hA, fun I J hI hJ => ?_⟩
  rw [hAe I J hI hJ, quadSum_zip el () _ _ _ hl]
  rfl

/-! ### Rules for simplices -/

private theorem accurate {I : ((Fin d → ℝ) → ℝ) → ℝ} {dom : (Fin d → ℝ) → Prop} {st : Nat} {rule : Quadrature.Rule d ℝ}
    (hr : IsRule I dom st rule.1 rule.2) {n : Nat} {B : ℝ} {f : (Fin d → ℝ) → ℝ} (hf : PolyBd n B f) (hn : n ≤ st) :
    |ruleSum rule f - I f| ≤ B / 10 ^ 36 := by
  obtain ⟨p, h1, h2, h3⟩ := hf
  obtain rfl : f = fun x => MvPolynomial.eval x p := funext h3
  exact (hr.accurate p (h1.trans hn)).trans (by gcongr)

private theorem mass_simplex (el : VolElement d ℝ) {I : ((Fin d → ℝ) → ℝ) → ℝ} {dom : (Fin d → ℝ) → Prop} {st n : Nat} {B : ℝ}
    {rule : Quadrature.Rule d ℝ} (hr : IsRule I dom st rule.1 rule.2)
    (hb : ∀ i : Nat, PolyBd n B fun x => (el.basis x)[i]?.getD 0) (hn : n + n ≤ st) (hB : B ≤ 216)
    (hJ : ∀ x, el.jacobian x = el.jacobian 0) (a b : Nat) :
    |ruleSum rule (fun x => (el.basis x)[a]?.getD 0 * (el.basis x)[b]?.getD 0 * |(el.jacobian x).det|) -
      I (fun x => (el.basis x)[a]?.getD 0 * (el.basis x)[b]?.getD 0 * |(el.jacobian x).det|)| ≤ |(el.jacobian 0).det| / 10 ^ 31 := by
  have hf : PolyBd (n + n) (B * B * |(el.jacobian 0).det|)
      fun x => (el.basis x)[a]?.getD 0 * (el.basis x)[b]?.getD 0 * |(el.jacobian x).det| := by
    have := ((hb a).mul (hb b)).mul (PolyBd.const |(el.jacobian 0).det|)
    rw [abs_abs] at this
    exact this.congr fun x => by rw [hJ x]
  refine (accurate hr hf hn).trans ?_
  have h0 := (hb 0).nonneg
  have : B * B ≤ 216 * 216 := mul_le_mul hB hB h0 (by norm_num)
  have h1 := mul_le_mul_of_nonneg_right this (abs_nonneg (el.jacobian 0).det)
  rw [div_le_div_iff₀ (by norm_num) (by norm_num)]
  have h2 := abs_nonneg (el.jacobian 0).det
  nlinarith

/-- The size of the inverse of a matrix that bounds products of mapped gradients. -/
private noncomputable def invSize (J : Matrix (Fin d) (Fin d) ℝ) : ℝ := ∑ k, (∑ m, |J⁻¹ m k|) ^ 2

private theorem stiffness_simplex (el : VolElement d ℝ) {I : ((Fin d → ℝ) → ℝ) → ℝ} {dom : (Fin d → ℝ) → Prop} {st n : Nat} {B : ℝ}
    {rule : Quadrature.Rule d ℝ} (hr : IsRule I dom st rule.1 rule.2)
    (hb : ∀ i : Nat, GradBd n B fun x => (el.gradients x)[i]?.getD 0) (hn : n + n ≤ st) (hB : B ≤ 216) (hB0 : 0 ≤ B)
    (hJ : ∀ x, el.jacobian x = el.jacobian 0) (a b : Nat) :
    |ruleSum rule (fun x => (∑ k, Local.Spec.physGrad (el.jacobian x) ((el.gradients x)[a]?.getD 0) k *
          Local.Spec.physGrad (el.jacobian x) ((el.gradients x)[b]?.getD 0) k) * |(el.jacobian x).det|) -
      I (fun x => (∑ k, Local.Spec.physGrad (el.jacobian x) ((el.gradients x)[a]?.getD 0) k *
          Local.Spec.physGrad (el.jacobian x) ((el.gradients x)[b]?.getD 0) k) * |(el.jacobian x).det|)| ≤
      invSize (el.jacobian 0) * |(el.jacobian 0).det| / 10 ^ 31 := by
  have hp : ∀ (i : Nat) (k : Fin d), PolyBd n ((∑ m, |(el.jacobian 0)⁻¹ m k|) * B)
      fun x => Local.Spec.physGrad (el.jacobian 0) ((el.gradients x)[i]?.getD 0) k := by
    intro i k
    rw [Finset.sum_mul]
    exact PolyBd.sum Finset.univ _ _ fun m _ => (hb i m).smul ((el.jacobian 0)⁻¹ m k)
  have hf := (PolyBd.sum Finset.univ _ _ fun k _ => (hp a k).mul (hp b k)).mul (PolyBd.const |(el.jacobian 0).det|)
  rw [abs_abs] at hf
  have hf' := hf.congr (g := fun x => (∑ k, Local.Spec.physGrad (el.jacobian x) ((el.gradients x)[a]?.getD 0) k *
          Local.Spec.physGrad (el.jacobian x) ((el.gradients x)[b]?.getD 0) k) * |(el.jacobian x).det|) fun x => by rw [hJ x]
  refine (accurate hr hf' hn).trans ?_
  have e : ∑ k, (∑ m, |(el.jacobian 0)⁻¹ m k|) * B * ((∑ m, |(el.jacobian 0)⁻¹ m k|) * B) = B * B * invSize (el.jacobian 0) := by
    rw [invSize, Finset.mul_sum]
    exact Finset.sum_congr rfl fun k _ => by ring
  rw [e]
  have h0 : 0 ≤ invSize (el.jacobian 0) * |(el.jacobian 0).det| :=
    mul_nonneg (Finset.sum_nonneg fun k _ => sq_nonneg _) (abs_nonneg _)
  have : B * B ≤ 216 * 216 := mul_le_mul hB hB hB0 (by norm_num)
  have h1 := mul_le_mul_of_nonneg_right this h0
  rw [div_le_div_iff₀ (by norm_num) (by norm_num)]
  nlinarith

/-! ### Tensor rules -/

private theorem exact_tensor {I : ((Fin d → ℝ) → ℝ) → ℝ} {D : Nat} {rule : Quadrature.Rule d ℝ}
    (hr : ∀ q : MvPolynomial (Fin d) ℝ, (∀ i, q.degreeOf i ≤ D) → Quadrature.integrate rule (fun x => MvPolynomial.eval x q) =
      I fun x => MvPolynomial.eval x q) {v : Fin d → Nat} {f : (Fin d → ℝ) → ℝ} (hf : PolyVar v f) (hv : ∀ i, v i ≤ D) :
    ruleSum rule f = I f := by
  obtain ⟨q, h1, h2⟩ := hf
  obtain rfl : f = fun x => MvPolynomial.eval x q := funext h2
  rw [← hr q fun i => (h1 i).trans (hv i)]
  unfold ruleSum Quadrature.integrate
  rw [List.zip_eq_zipWith, List.map_zipWith]

private theorem ruleSum_congr (rule : Quadrature.Rule d ℝ) {f g : (Fin d → ℝ) → ℝ} (h : ∀ x ∈ rule.2, f x = g x) : ruleSum rule f = ruleSum rule g := by
  unfold ruleSum
  generalize rule.1 = ws at *
  generalize rule.2 = ps at *
  induction ps generalizing ws with
  | nil => simp
  | cons p ps ih =>
    cases ws with
    | nil => rfl
    | cons w ws =>
      rw [List.zipWith_cons_cons, List.zipWith_cons_cons, List.sum_cons, List.sum_cons, h p List.mem_cons_self,
        ih ws fun x hx => h x (List.mem_cons_of_mem _ hx)]

private theorem mass_tensor (el : VolElement d ℝ) {I : ((Fin d → ℝ) → ℝ) → ℝ} {n m D : Nat} {rule : Quadrature.Rule d ℝ}
    (hr : ∀ q : MvPolynomial (Fin d) ℝ, (∀ i, q.degreeOf i ≤ D) → Quadrature.integrate rule (fun x => MvPolynomial.eval x q) =
      I fun x => MvPolynomial.eval x q) (hI : ∀ f g : (Fin d → ℝ) → ℝ, (∀ x, InReferenceCube x → f x = g x) → I f = I g)
    (hin : ∀ x ∈ rule.2, InReferenceCube x) (hb : ∀ i : Nat, PolyVar (fun _ => n) fun x => (el.basis x)[i]?.getD 0)
    (hJ : PolyVar (fun _ => m) fun x => (el.jacobian x).det) (hpos : ∀ x, InReferenceCube x → 0 ≤ (el.jacobian x).det)
    (hn : n + n + m ≤ D) (a b : Nat) :
    ruleSum rule (fun x => (el.basis x)[a]?.getD 0 * (el.basis x)[b]?.getD 0 * |(el.jacobian x).det|) =
      I (fun x => (el.basis x)[a]?.getD 0 * (el.basis x)[b]?.getD 0 * |(el.jacobian x).det|) := by
  have e : ∀ x : Fin d → ℝ, InReferenceCube x → (el.basis x)[a]?.getD 0 * (el.basis x)[b]?.getD 0 * |(el.jacobian x).det| =
      (el.basis x)[a]?.getD 0 * (el.basis x)[b]?.getD 0 * (el.jacobian x).det := fun x hx => by rw [abs_of_nonneg (hpos x hx)]
  rw [ruleSum_congr rule fun x hx => e x (hin x hx), hI _ _ e]
  exact exact_tensor hr (((hb a).mul (hb b)).mul hJ) fun i => hn

private theorem stiffness_tensor (el : VolElement d ℝ) {I : ((Fin d → ℝ) → ℝ) → ℝ} {n D : Nat} {rule : Quadrature.Rule d ℝ}
    (hr : ∀ q : MvPolynomial (Fin d) ℝ, (∀ i, q.degreeOf i ≤ D) → Quadrature.integrate rule (fun x => MvPolynomial.eval x q) =
      I fun x => MvPolynomial.eval x q) (hb : ∀ i : Nat, GradVar (fun _ => n) fun x => (el.gradients x)[i]?.getD 0)
    (hJ : ∀ x, el.jacobian x = el.jacobian 0) (hn : n + n ≤ D) (a b : Nat) :
    ruleSum rule (fun x => (∑ k, Local.Spec.physGrad (el.jacobian x) ((el.gradients x)[a]?.getD 0) k *
          Local.Spec.physGrad (el.jacobian x) ((el.gradients x)[b]?.getD 0) k) * |(el.jacobian x).det|) =
      I (fun x => (∑ k, Local.Spec.physGrad (el.jacobian x) ((el.gradients x)[a]?.getD 0) k *
          Local.Spec.physGrad (el.jacobian x) ((el.gradients x)[b]?.getD 0) k) * |(el.jacobian x).det|) := by
  have hp : ∀ (i : Nat) (k : Fin d), PolyVar (fun _ => n) fun x => Local.Spec.physGrad (el.jacobian 0) ((el.gradients x)[i]?.getD 0) k :=
    fun i k => PolyVar.sum Finset.univ _ fun m _ => (hb i m).smul ((el.jacobian 0)⁻¹ m k)
  have hf := (PolyVar.sum Finset.univ _ fun k _ => (hp a k).mul (hp b k)).mul (PolyVar.const (fun _ => 0) |(el.jacobian 0).det|)
  have hf' := hf.congr (g := fun x => (∑ k, Local.Spec.physGrad (el.jacobian x) ((el.gradients x)[a]?.getD 0) k *
          Local.Spec.physGrad (el.jacobian x) ((el.gradients x)[b]?.getD 0) k) * |(el.jacobian x).det|) fun x => by rw [hJ x]
  exact exact_tensor hr hf' fun i => hn

end

private theorem gauss_base {n : Nat} {rule : Quadrature.Rule 1 ℝ} (h : IsGaussRule n rule.1 rule.2) (q : ℝ[X]) (hq : q.natDegree ≤ 2 * n - 1) :
    Quadrature.integrate rule (fun p => q.eval (p 0)) = ∫ x in (-1 : ℝ)..1, q.eval x := by
  rw [← h.exact q hq, Quadrature.integrate, List.zip_eq_zipWith, List.map_zipWith]

private theorem quadrilateral_length (rule : Quadrature.Rule 1 ℝ) : (Quadrature.quadrilateral rule).1.length = (Quadrature.quadrilateral rule).2.length := by
  simp [Quadrature.quadrilateral]

private theorem hexahedron_length (rule : Quadrature.Rule 1 ℝ) : (Quadrature.hexahedron rule).1.length = (Quadrature.hexahedron rule).2.length := by
  simp [Quadrature.hexahedron]

private theorem quadrilateral_inside {n : Nat} {rule : Quadrature.Rule 1 ℝ} (h : IsGaussRule n rule.1 rule.2) :
    ∀ x ∈ (Quadrature.quadrilateral rule).2, InReferenceCube x := by
  intro x hx
  simp only [Quadrature.quadrilateral, List.mem_map, List.mem_flatMap] at hx
  obtain ⟨-, ⟨a, ha, b, hb, rfl⟩, rfl⟩ := hx
  have h1 := h.inside a.2 (List.of_mem_zip ha).2
  have h2 := h.inside b.2 (List.of_mem_zip hb).2
  intro i
  fin_cases i
  · exact h1
  · exact h2

private theorem hexahedron_inside {n : Nat} {rule : Quadrature.Rule 1 ℝ} (h : IsGaussRule n rule.1 rule.2) :
    ∀ x ∈ (Quadrature.hexahedron rule).2, InReferenceCube x := by
  intro x hx
  simp only [Quadrature.hexahedron, List.mem_map, List.mem_flatMap] at hx
  obtain ⟨-, ⟨a, ha, b, hb, c, hc, rfl⟩, rfl⟩ := hx
  have h1 := h.inside a.2 (List.of_mem_zip ha).2
  have h2 := h.inside b.2 (List.of_mem_zip hb).2
  have h3 := h.inside c.2 (List.of_mem_zip hc).2
  intro i
  fin_cases i
  · exact h1
  · exact h2
  · exact h3

private theorem square_congr (f g : (Fin 2 → ℝ) → ℝ) (h : ∀ x, InReferenceCube x → f x = g x) :
    Fenris.Spec.squareIntegral f = Fenris.Spec.squareIntegral g := by
  have hi : ∀ x ∈ Set.uIcc (-1 : ℝ) 1, |x| ≤ 1 := fun x hx => by
    rw [Set.uIcc_of_le (by norm_num)] at hx; exact abs_le.mpr hx
  unfold Fenris.Spec.squareIntegral
  refine intervalIntegral.integral_congr fun x hx => intervalIntegral.integral_congr fun y hy => h _ fun i => ?_
  fin_cases i
  · exact hi x hx
  · exact hi y hy

private theorem cube_congr (f g : (Fin 3 → ℝ) → ℝ) (h : ∀ x, InReferenceCube x → f x = g x) :
    Fenris.Spec.cubeIntegral f = Fenris.Spec.cubeIntegral g := by
  have hi : ∀ x ∈ Set.uIcc (-1 : ℝ) 1, |x| ≤ 1 := fun x hx => by
    rw [Set.uIcc_of_le (by norm_num)] at hx; exact abs_le.mpr hx
  unfold Fenris.Spec.cubeIntegral
  refine intervalIntegral.integral_congr fun x hx => intervalIntegral.integral_congr fun y hy =>
    intervalIntegral.integral_congr fun z hz => h _ fun i => ?_
  fin_cases i
  · exact hi x hx
  · exact hi y hy
  · exact hi z hz

/-! ### The property -/

/-- C88: for every triangle and tetrahedron, of every order, whatever its vertices, the element mass matrix that is assembled with the
canonical mass quadrature has the entries `ρ ∫_K φ_I φ_J dx`, up to `10^-31` times the size of the element (the tabulated points and weights
have 38 digits). -/
theorem C88_mass_simplex (gauss : Nat → Quadrature.Rule 1 ℝ) (e : Element.Kind) (he : e.geometry = .tri3 ∨ e.geometry = .tet4)
    (vertices : List (Point e.dim ℝ)) (s : Nat) (density : ℝ) (out0 : Mat ℝ) :
    ∃ rule M, massRule gauss e = some rule ∧
      massMatrix (elementOfKind e vertices) s rule.1 rule.2 (List.replicate rule.2.length density) out0 = some M ∧
      ∀ (I J : Nat) (i j : Fin s), I < e.numNodes → J < e.numNodes →
        |M (s * I + i) (s * J + j) - if i = j then density * massIntegral e (elementOfKind e vertices) I J else 0| ≤
          |density| * |((elementOfKind e vertices).jacobian 0).det| / 10 ^ 31 := by
  have main : ∃ rule, massRule gauss e = some rule ∧ rule.1.length = rule.2.length ∧ ∀ a b : Nat,
      |ruleSum rule (fun x => ((elementOfKind e vertices).basis x)[a]?.getD 0 * ((elementOfKind e vertices).basis x)[b]?.getD 0 *
          |((elementOfKind e vertices).jacobian x).det|) - massIntegral e (elementOfKind e vertices) a b| ≤
        |((elementOfKind e vertices).jacobian 0).det| / 10 ^ 31 := by
    cases e with
    | tri3 =>
      obtain ⟨rule, h1, h2, -⟩ := (C87_triangle 2).1 (by norm_num)
      exact ⟨rule, h1, h2.length, fun a b => mass_simplex (elementOfKind .tri3 vertices) h2 tri3_basis (by norm_num) (by norm_num) (fun _ => rfl) a b⟩
    | tri6 =>
      obtain ⟨rule, h1, h2, -⟩ := (C87_triangle 4).1 (by norm_num)
      exact ⟨rule, h1, h2.length, fun a b => mass_simplex (elementOfKind .tri6 vertices) h2 tri6_basis (by norm_num) (by norm_num) (fun _ => rfl) a b⟩
    | tet4 =>
      obtain ⟨rule, h1, h2, -⟩ := (C87_tetrahedron 2).1 (by norm_num)
      exact ⟨rule, h1, h2.length, fun a b => mass_simplex (elementOfKind .tet4 vertices) h2 tet4_basis (by norm_num) (by norm_num) (fun _ => rfl) a b⟩
    | tet10 =>
      obtain ⟨rule, h1, h2, -⟩ := (C87_tetrahedron 4).1 (by norm_num)
      exact ⟨rule, h1, h2.length, fun a b => mass_simplex (elementOfKind .tet10 vertices) h2 tet10_basis (by norm_num) (by norm_num) (fun _ => rfl) a b⟩
    | tet20 =>
      obtain ⟨rule, h1, h2, -⟩ := (C87_tetrahedron 6).1 (by norm_num)
      exact ⟨rule, h1, h2.length, fun a b => mass_simplex (elementOfKind .tet20 vertices) h2 tet20_basis (by norm_num) (by norm_num) (fun _ => rfl) a b⟩
    | segment2 | quad4 | quad9 | hex8 | hex20 | hex27 => rcases he with he | he <;> cases he
  obtain ⟨rule, hrule, hl, hacc⟩ := main
  obtain ⟨M, hM, hMe⟩ := mass_entry (elementOfKind e vertices) (elementOfKind_wellFormed e vertices) s rule hl density out0
  refine ⟨rule, M, hrule, hM, fun I J i j hI hJ => ?_⟩
  rw [hMe I J i j hI hJ]
  split
  · rw [← mul_sub, abs_mul, mul_div_assoc]
    exact mul_le_mul_of_nonneg_left (hacc I J) (abs_nonneg _)
  · rw [sub_zero, abs_zero]
    positivity

/-- C88: for every non-degenerate triangle and tetrahedron, of every order, the element Laplace matrix that is assembled with the canonical
stiffness quadrature has the entries `∫_K ∇φ_I · ∇φ_J dx`, up to `10^-31` times the size of the element and of the inverse of its Jacobian. -/
theorem C88_stiffness_simplex (gauss : Nat → Quadrature.Rule 1 ℝ) (e : Element.Kind) (he : e.geometry = .tri3 ∨ e.geometry = .tet4)
    (vertices : List (Point e.dim ℝ)) (hdet : ((elementOfKind e vertices).jacobian 0).det ≠ 0) (u : List ℝ) (hu : u.length = e.numNodes)
    (out0 : Mat ℝ) :
    ∃ rule A, stiffnessRule gauss e = some rule ∧
      ellipticMatrix (elementOfKind e vertices) (laplace e.dim ℝ) u rule.1 rule.2 (List.replicate rule.2.length ()) out0 = some (.ok A) ∧
      ∀ I J : Nat, I < e.numNodes → J < e.numNodes →
        |A I J - stiffnessIntegral e (elementOfKind e vertices) I J| ≤
          (∑ k, (∑ m, |((elementOfKind e vertices).jacobian 0)⁻¹ m k|) ^ 2) * |((elementOfKind e vertices).jacobian 0).det| / 10 ^ 31 := by
  have hJ : ∀ x, (elementOfKind e vertices).jacobian x = (elementOfKind e vertices).jacobian 0 := by
    intro x
    cases e with
    | tri3 | tri6 | tet4 | tet10 | tet20 => rfl
    | segment2 | quad4 | quad9 | hex8 | hex20 | hex27 => rcases he with he | he <;> cases he
  have main : ∃ rule, stiffnessRule gauss e = some rule ∧ rule.1.length = rule.2.length ∧ ∀ a b : Nat,
      |ruleSum rule (fun x => (∑ k, Local.Spec.physGrad ((elementOfKind e vertices).jacobian x) (((elementOfKind e vertices).gradients x)[a]?.getD 0) k *
          Local.Spec.physGrad ((elementOfKind e vertices).jacobian x) (((elementOfKind e vertices).gradients x)[b]?.getD 0) k) *
            |((elementOfKind e vertices).jacobian x).det|) - stiffnessIntegral e (elementOfKind e vertices) a b| ≤
        invSize ((elementOfKind e vertices).jacobian 0) * |((elementOfKind e vertices).jacobian 0).det| / 10 ^ 31 := by
    cases e with
    | tri3 =>
      obtain ⟨rule, h1, h2, -⟩ := (C87_triangle 1).1 (by norm_num)
      exact ⟨rule, h1, h2.length, fun a b => stiffness_simplex (elementOfKind .tri3 vertices) h2 tri3_gradients (by norm_num) (by norm_num) (by norm_num) hJ a b⟩
    | tri6 =>
      obtain ⟨rule, h1, h2, -⟩ := (C87_triangle 2).1 (by norm_num)
      exact ⟨rule, h1, h2.length, fun a b => stiffness_simplex (elementOfKind .tri6 vertices) h2 tri6_gradients (by norm_num) (by norm_num) (by norm_num) hJ a b⟩
    | tet4 =>
      obtain ⟨rule, h1, h2, -⟩ := (C87_tetrahedron 1).1 (by norm_num)
      exact ⟨rule, h1, h2.length, fun a b => stiffness_simplex (elementOfKind .tet4 vertices) h2 tet4_gradients (by norm_num) (by norm_num) (by norm_num) hJ a b⟩
    | tet10 =>
      obtain ⟨rule, h1, h2, -⟩ := (C87_tetrahedron 2).1 (by norm_num)
      exact ⟨rule, h1, h2.length, fun a b => stiffness_simplex (elementOfKind .tet10 vertices) h2 tet10_gradients (by norm_num) (by norm_num) (by norm_num) hJ a b⟩
    | tet20 =>
      obtain ⟨rule, h1, h2, -⟩ := (C87_tetrahedron 4).1 (by norm_num)
      exact ⟨rule, h1, h2.length, fun a b => stiffness_simplex (elementOfKind .tet20 vertices) h2 tet20_gradients (by norm_num) (by norm_num) (by norm_num) hJ a b⟩
    | segment2 | quad4 | quad9 | hex8 | hex20 | hex27 => rcases he with he | he <;> cases he
  obtain ⟨rule, hrule, hl, hacc⟩ := main
  obtain ⟨A, hA, hAe⟩ := stiffness_entry (elementOfKind e vertices) (elementOfKind_wellFormed e vertices) rule hl u hu out0
    (fun x _ => by rw [hJ x]; exact hdet)
  refine ⟨rule, A, hrule, hA, fun I J hI hJ' => ?_⟩
  rw [hAe I J hI hJ']
  exact hacc I J

/-- C88: for every quadrilateral whose geometry map does not reverse orientation anywhere, of both orders, the element mass matrix that is
assembled with the canonical mass quadrature has exactly the entries `ρ ∫_K φ_I φ_J dx`. -/
theorem C88_mass_quadrilateral (gauss : Nat → Quadrature.Rule 1 ℝ) (h2 : IsGaussRule 2 (gauss 2).1 (gauss 2).2)
    (h3 : IsGaussRule 3 (gauss 3).1 (gauss 3).2)
    (e : Element.Kind) (he : e.geometry = .quad4) (vertices : List (Point e.dim ℝ))
    (hpos : ∀ x, InReferenceCube x → 0 ≤ ((elementOfKind e vertices).jacobian x).det) (s : Nat) (density : ℝ) (out0 : Mat ℝ) :
    ∃ rule M, massRule gauss e = some rule ∧
      massMatrix (elementOfKind e vertices) s rule.1 rule.2 (List.replicate rule.2.length density) out0 = some M ∧
      ∀ (I J : Nat) (i j : Fin s), I < e.numNodes → J < e.numNodes →
        M (s * I + i) (s * J + j) = if i = j then density * massIntegral e (elementOfKind e vertices) I J else 0 := by
  have main : ∃ rule, massRule gauss e = some rule ∧ rule.1.length = rule.2.length ∧ ∀ a b : Nat,
      ruleSum rule (fun x => ((elementOfKind e vertices).basis x)[a]?.getD 0 * ((elementOfKind e vertices).basis x)[b]?.getD 0 *
          |((elementOfKind e vertices).jacobian x).det|) = massIntegral e (elementOfKind e vertices) a b := by
    cases e with
    | quad4 =>
      have h := h2
      exact ⟨_, rfl, quadrilateral_length _, fun a b => mass_tensor (elementOfKind .quad4 vertices)
        (Quadrature.C41_quadrilateral_exact _ 3 (gauss_base h)) square_congr (quadrilateral_inside h) quad4_basis
        (quad4_det _) hpos (by norm_num) a b⟩
    | quad9 =>
      have h := h3
      exact ⟨_, rfl, quadrilateral_length _, fun a b => mass_tensor (elementOfKind .quad9 vertices)
        (Quadrature.C41_quadrilateral_exact _ 5 (gauss_base h)) square_congr (quadrilateral_inside h) quad9_basis
        (quad4_det _) hpos (by norm_num) a b⟩
    | segment2 | tri3 | tri6 | tet4 | tet10 | tet20 | hex8 | hex20 | hex27 => cases he
  obtain ⟨rule, hrule, hl, hacc⟩ := main
  obtain ⟨M, hM, hMe⟩ := mass_entry (elementOfKind e vertices) (elementOfKind_wellFormed e vertices) s rule hl density out0
  exact ⟨rule, M, hrule, hM, fun I J i j hI hJ => by rw [hMe I J i j hI hJ, hacc]⟩

/-- C88: for hexahedra the same holds when the determinant of the geometry map is a polynomial of degree at most one in each variable, as it
is for parallelepipeds and for quadrilaterals extruded in a direction. `C88_mass_not_exact` shows that it is not true of all hexahedra. -/
theorem C88_mass_hexahedron (gauss : Nat → Quadrature.Rule 1 ℝ) (h2 : IsGaussRule 2 (gauss 2).1 (gauss 2).2)
    (h3 : IsGaussRule 3 (gauss 3).1 (gauss 3).2)
    (e : Element.Kind) (he : e.geometry = .hex8) (vertices : List (Point e.dim ℝ))
    (hdet : ∃ q : MvPolynomial (Fin e.dim) ℝ, (∀ i, q.degreeOf i ≤ 1) ∧ ∀ x, ((elementOfKind e vertices).jacobian x).det = MvPolynomial.eval x q)
    (hpos : ∀ x, InReferenceCube x → 0 ≤ ((elementOfKind e vertices).jacobian x).det) (s : Nat) (density : ℝ) (out0 : Mat ℝ) :
    ∃ rule M, massRule gauss e = some rule ∧
      massMatrix (elementOfKind e vertices) s rule.1 rule.2 (List.replicate rule.2.length density) out0 = some M ∧
      ∀ (I J : Nat) (i j : Fin s), I < e.numNodes → J < e.numNodes →
        M (s * I + i) (s * J + j) = if i = j then density * massIntegral e (elementOfKind e vertices) I J else 0 := by
  have main : ∃ rule, massRule gauss e = some rule ∧ rule.1.length = rule.2.length ∧ ∀ a b : Nat,
      ruleSum rule (fun x => ((elementOfKind e vertices).basis x)[a]?.getD 0 * ((elementOfKind e vertices).basis x)[b]?.getD 0 *
          |((elementOfKind e vertices).jacobian x).det|) = massIntegral e (elementOfKind e vertices) a b := by
    cases e with
    | hex8 =>
      have h := h2
      exact ⟨_, rfl, hexahedron_length _, fun a b => mass_tensor (elementOfKind .hex8 vertices)
        (Quadrature.C41_hexahedron_exact _ 3 (gauss_base h)) cube_congr (hexahedron_inside h) hex8_basis hdet hpos (by norm_num) a b⟩
    | hex20 =>
      have h := h3
      exact ⟨_, rfl, hexahedron_length _, fun a b => mass_tensor (elementOfKind .hex20 vertices)
        (Quadrature.C41_hexahedron_exact _ 5 (gauss_base h)) cube_congr (hexahedron_inside h) hex20_basis hdet hpos (by norm_num) a b⟩
    | hex27 =>
      have h := h3
      exact ⟨_, rfl, hexahedron_length _, fun a b => mass_tensor (elementOfKind .hex27 vertices)
        (Quadrature.C41_hexahedron_exact _ 5 (gauss_base h)) cube_congr (hexahedron_inside h) hex27_basis hdet hpos (by norm_num) a b⟩
    | segment2 | tri3 | tri6 | tet4 | tet10 | tet20 | quad4 | quad9 => cases he
  obtain ⟨rule, hrule, hl, hacc⟩ := main
  obtain ⟨M, hM, hMe⟩ := mass_entry (elementOfKind e vertices) (elementOfKind_wellFormed e vertices) s rule hl density out0
  exact ⟨rule, M, hrule, hM, fun I J i j hI hJ => by rw [hMe I J i j hI hJ, hacc]⟩

/-- C88: for parallelograms and parallelepipeds (the geometry map has the same invertible Jacobian everywhere), of every order, the element
Laplace matrix that is assembled with the canonical stiffness quadrature has exactly the entries `∫_K ∇φ_I · ∇φ_J dx`.
`C88_stiffness_not_exact` shows that this is not true of all quadrilaterals. -/
theorem C88_stiffness_parallel (gauss : Nat → Quadrature.Rule 1 ℝ) (h2 : IsGaussRule 2 (gauss 2).1 (gauss 2).2)
    (h3 : IsGaussRule 3 (gauss 3).1 (gauss 3).2)
    (e : Element.Kind) (he : e.geometry = .quad4 ∨ e.geometry = .hex8) (vertices : List (Point e.dim ℝ))
    (haff : ∀ x, (elementOfKind e vertices).jacobian x = (elementOfKind e vertices).jacobian 0)
    (hdet : ((elementOfKind e vertices).jacobian 0).det ≠ 0) (u : List ℝ) (hu : u.length = e.numNodes) (out0 : Mat ℝ) :
    ∃ rule A, stiffnessRule gauss e = some rule ∧
      ellipticMatrix (elementOfKind e vertices) (laplace e.dim ℝ) u rule.1 rule.2 (List.replicate rule.2.length ()) out0 = some (.ok A) ∧
      ∀ I J : Nat, I < e.numNodes → J < e.numNodes → A I J = stiffnessIntegral e (elementOfKind e vertices) I J := by
  have main : ∃ rule, stiffnessRule gauss e = some rule ∧ rule.1.length = rule.2.length ∧ ∀ a b : Nat,
      ruleSum rule (fun x => (∑ k, Local.Spec.physGrad ((elementOfKind e vertices).jacobian x) (((elementOfKind e vertices).gradients x)[a]?.getD 0) k *
          Local.Spec.physGrad ((elementOfKind e vertices).jacobian x) (((elementOfKind e vertices).gradients x)[b]?.getD 0) k) *
            |((elementOfKind e vertices).jacobian x).det|) = stiffnessIntegral e (elementOfKind e vertices) a b := by
    cases e with
    | quad4 => exact ⟨_, rfl, quadrilateral_length _, fun a b => stiffness_tensor (elementOfKind .quad4 vertices)
        (Quadrature.C41_quadrilateral_exact _ 3 (gauss_base h2)) quad4_gradients haff (by norm_num) a b⟩
    | quad9 => exact ⟨_, rfl, quadrilateral_length _, fun a b => stiffness_tensor (elementOfKind .quad9 vertices)
        (Quadrature.C41_quadrilateral_exact _ 5 (gauss_base h3)) quad9_gradients haff (by norm_num) a b⟩
    | hex8 => exact ⟨_, rfl, hexahedron_length _, fun a b => stiffness_tensor (elementOfKind .hex8 vertices)
        (Quadrature.C41_hexahedron_exact _ 3 (gauss_base h2)) hex8_gradients haff (by norm_num) a b⟩
    | hex20 => exact ⟨_, rfl, hexahedron_length _, fun a b => stiffness_tensor (elementOfKind .hex20 vertices)
        (Quadrature.C41_hexahedron_exact _ 5 (gauss_base h3)) hex20_gradients haff (by norm_num) a b⟩
    | hex27 => exact ⟨_, rfl, hexahedron_length _, fun a b => stiffness_tensor (elementOfKind .hex27 vertices)
        (Quadrature.C41_hexahedron_exact _ 5 (gauss_base h3)) hex27_gradients haff (by norm_num) a b⟩
    | segment2 | tri3 | tri6 | tet4 | tet10 | tet20 => rcases he with he | he <;> cases he
  obtain ⟨rule, hrule, hl, hacc⟩ := main
  obtain ⟨A, hA, hAe⟩ := stiffness_entry (elementOfKind e vertices) (elementOfKind_wellFormed e vertices) rule hl u hu out0
    (fun x _ => by rw [haff x]; exact hdet)
  exact ⟨rule, A, hrule, hA, fun I J hI hJ => by rw [hAe I J hI hJ, hacc]⟩

/-! ### Gauss rules -/

/-- C88: the rule that `univariate::gauss(n)` returns is the Gauss rule as soon as the points it found are distinct roots of the Legendre
polynomial in the interval. -/
theorem C88_gauss_rule {n : Nat} {tol : ℝ} {guess : Nat → ℝ} {fuel : Nat} {rule : Quadrature.Rule 1 ℝ}
    (h : Quadrature.gauss n tol guess fuel = some (some rule)) (hin : ∀ x ∈ rule.2, |x 0| ≤ 1)
    (hroot : ∀ p : ℝ[X], Fenris.Spec.IsLegendre n p → ∀ x ∈ rule.2, p.eval (x 0) = 0) (hdist : rule.2.Nodup) : IsGaussRule n rule.1 rule.2 where
  length := by
    obtain ⟨h1, h2, -⟩ := Quadrature.C42_gauss_symmetric h
    rw [h1, h2]
  inside := hin
  roots := hroot
  exact q hq := by
    have := Quadrature.C42_gauss_exact h _ (Quadrature.legPoly_isLegendre n) (hroot _ (Quadrature.legPoly_isLegendre n)) hdist q hq
    rw [← this, Quadrature.integrate, List.zip_eq_zipWith, List.map_zipWith]

private theorem integral_poly (q : ℝ[X]) {n : Nat} (hq : q.natDegree < n) :
    ∫ x in (-1 : ℝ)..1, q.eval x = ∑ k ∈ Finset.range n, q.coeff k * ((1 - (-1) ^ (k + 1)) / (k + 1)) := by
  simp only [eval_eq_sum_range' hq]
  rw [intervalIntegral.integral_finsetSum fun k _ => by apply Continuous.intervalIntegrable; fun_prop]
  refine Finset.sum_congr rfl fun k _ => ?_
  rw [intervalIntegral.integral_const_mul, integral_pow, one_pow]

private theorem eval_leg2 (x : ℝ) : (Quadrature.legPoly 2 : ℝ[X]).eval x = (3 * (x * x) - 1) / 2 := by
  simp [Quadrature.legPoly]
  ring

private theorem eval_leg3 (x : ℝ) : (Quadrature.legPoly 3 : ℝ[X]).eval x = x * (5 * (x * x) - 3) / 2 := by
  simp [Quadrature.legPoly]
  ring

/-- The Gauss rules with two and three points, up to rounding as computed by the library. -/
noncomputable def gaussExample : Nat → Quadrature.Rule 1 ℝ
  | 2 => ([1, 1], [![Real.sqrt (1 / 3)], ![-Real.sqrt (1 / 3)]])
  | 3 => ([5 / 9, 8 / 9, 5 / 9], [![Real.sqrt (3 / 5)], ![0], ![-Real.sqrt (3 / 5)]])
  | _ => ([], [])

private theorem gauss_two (r : ℝ) (h : r * r = 1 / 3) : IsGaussRule 2 [1, 1] [![r], ![-r]] where
  length := rfl
  inside := by
    have h1 : |r| ≤ 1 := abs_le.mpr ⟨by nlinarith, by nlinarith⟩
    intro x hx
    simp only [List.mem_cons, List.not_mem_nil, or_false] at hx
    rcases hx with rfl | rfl
    · exact h1
    · simpa using h1
  roots := by
    intro p hp x hx
    obtain rfl := Quadrature.isLegendre_unique hp (Quadrature.legPoly_isLegendre 2)
    simp only [List.mem_cons, List.not_mem_nil, or_false] at hx
    rw [eval_leg2]
    rcases hx with rfl | rfl
    · simp only [Matrix.cons_val_zero]; linarith
    · simp only [Matrix.cons_val_zero]; linarith
  exact := by
    intro q hq
    rw [integral_poly q (show q.natDegree < 4 by omega)]
    simp only [List.zipWith_cons_cons, List.zipWith_nil_left, List.sum_cons, List.sum_nil, Matrix.cons_val_zero,
      eval_eq_sum_range' (show q.natDegree < 4 by omega), Finset.sum_range_succ, Finset.sum_range_zero]
    norm_num
    have h2 : r ^ 2 = 1 / 3 := by rw [sq]; exact h
    rw [h2]
    ring

private theorem gauss_three (r : ℝ) (h : r * r = 3 / 5) : IsGaussRule 3 [5 / 9, 8 / 9, 5 / 9] [![r], ![0], ![-r]] where
  length := rfl
  inside := by
    have h1 : |r| ≤ 1 := abs_le.mpr ⟨by nlinarith, by nlinarith⟩
    intro x hx
    simp only [List.mem_cons, List.not_mem_nil, or_false] at hx
    rcases hx with rfl | rfl | rfl
    · exact h1
    · simp
    · simpa using h1
  roots := by
    intro p hp x hx
    obtain rfl := Quadrature.isLegendre_unique hp (Quadrature.legPoly_isLegendre 3)
    simp only [List.mem_cons, List.not_mem_nil, or_false] at hx
    rw [eval_leg3]
    rcases hx with rfl | rfl | rfl
    · simp only [Matrix.cons_val_zero]; rw [h]; ring
    · simp
    · simp only [Matrix.cons_val_zero, neg_mul_neg]; rw [h]; ring
  exact := by
    intro q hq
    rw [integral_poly q (show q.natDegree < 6 by omega)]
    simp only [List.zipWith_cons_cons, List.zipWith_nil_left, List.sum_cons, List.sum_nil, Matrix.cons_val_zero,
      eval_eq_sum_range' (show q.natDegree < 6 by omega), Finset.sum_range_succ, Finset.sum_range_zero]
    norm_num
    have h2 : r ^ 2 = 3 / 5 := by rw [sq]; exact h
    have h4 : r ^ 4 = 9 / 25 := by rw [show r ^ 4 = (r ^ 2) ^ 2 by ring, h2]; norm_num
    rw [h2, h4]
    ring_nf
    rw [h4]
    ring

theorem gaussExample_two : IsGaussRule 2 (gaussExample 2).1 (gaussExample 2).2 :=
  gauss_two _ (Real.mul_self_sqrt (by norm_num))

theorem gaussExample_three : IsGaussRule 3 (gaussExample 3).1 (gaussExample 3).2 :=
  gauss_three _ (Real.mul_self_sqrt (by norm_num))

/-- Sanity: the hypotheses of the theorems above are met by a parallelogram and by a trapezoid. -/
example : (∀ x, (elementOfKind .quad4 ([![0, 0], ![2, 1], ![3, 4], ![1, 3]] : List (Point 2 ℝ))).jacobian x =
      (elementOfKind .quad4 ([![0, 0], ![2, 1], ![3, 4], ![1, 3]] : List (Point 2 ℝ))).jacobian 0) ∧
    ((elementOfKind .quad4 ([![0, 0], ![2, 1], ![3, 4], ![1, 3]] : List (Point 2 ℝ))).jacobian 0).det ≠ 0 := by
  constructor
  · intro x
    ext r c
    fin_cases r <;> fin_cases c <;>
      simp [elementOfKind, Element.referenceJacobian, Element.weightedSum, Element.geometryGradients, Element.quad4Gradients,
        Element.quad4PhiGrad, Element.Kind.numNodes] <;> ring
  · rw [Matrix.det_fin_two]
    simp [elementOfKind, Element.referenceJacobian, Element.weightedSum, Element.geometryGradients, Element.quad4Gradients,
      Element.quad4PhiGrad, Element.Kind.numNodes]
    norm_num

/-! ### Where the canonical quadratures are not exact -/

/-- The trapezoid with the given vertices. -/
private def trapezoid : List (Point 2 ℝ) := [![-1, -1], ![1, -1], ![3, 1], ![-3, 1]]

private theorem trapezoid_jacobian (x : Point 2 ℝ) : (elementOfKind .quad4 trapezoid).jacobian x = !![2 + x 1, x 0; 0, 1] := by
  ext r c
  fin_cases r <;> fin_cases c <;>
    simp [elementOfKind, trapezoid, Element.referenceJacobian, Element.weightedSum, Element.geometryGradients, Element.quad4Gradients,
      Element.quad4PhiGrad, Element.Kind.numNodes] <;> ring

private theorem trapezoid_det (x : Point 2 ℝ) : ((elementOfKind .quad4 trapezoid).jacobian x).det = 2 + x 1 := by
  rw [trapezoid_jacobian, Matrix.det_fin_two]
  simp

private theorem trapezoid_grad (x : Point 2 ℝ) : ((elementOfKind .quad4 trapezoid).gradients x)[0]?.getD 0 = ![-(1 - x 1) / 4, -(1 - x 0) / 4] := by
  ext k
  fin_cases k <;> simp [elementOfKind, Element.gradients, Element.quad4Gradients, Element.quad4PhiGrad] <;> ring

private theorem trapezoid_integrand (x : Point 2 ℝ) (hx : -2 < x 1) :
    (∑ k, Local.Spec.physGrad ((elementOfKind .quad4 trapezoid).jacobian x) (((elementOfKind .quad4 trapezoid).gradients x)[0]?.getD 0) k *
      Local.Spec.physGrad ((elementOfKind .quad4 trapezoid).jacobian x) (((elementOfKind .quad4 trapezoid).gradients x)[0]?.getD 0) k) *
        |((elementOfKind .quad4 trapezoid).jacobian x).det| =
    ((1 + x 0 * x 0) / 16 * (x 1 - 4 - 81 / 121 * (x 1 ^ 3 - 2 * x 1 ^ 2 + 10 / 3 * x 1 - 20 / 3)) - 2 * x 0 * (1 - x 1) * (1 - x 0) / 16 +
      (2 + x 1) * (1 - x 0) ^ 2 / 16) + 81 / 1936 * (1 + x 0 * x 0) * ((x 1 ^ 2 - 1 / 3) ^ 2 / (2 + x 1)) := by
  have h : 0 < 2 + x 1 := by linarith
  rw [trapezoid_grad, trapezoid_det, abs_of_pos h, trapezoid_jacobian]
  have hd : (!![2 + x 1, x 0; 0, 1] : Matrix (Fin 2) (Fin 2) ℝ).det = 2 + x 1 := by rw [Matrix.det_fin_two]; simp
  simp only [Local.Spec.physGrad, Matrix.inv_def, hd, Ring.inverse_eq_inv', Matrix.adjugate_fin_two_of, Fin.sum_univ_two, Matrix.smul_apply,
    smul_eq_mul]
  simp
  field_simp
  ring

private theorem gauss_two_points {rule : Quadrature.Rule 1 ℝ} (h : IsGaussRule 2 rule.1 rule.2) : ∀ x ∈ rule.2, x 0 ^ 2 = 1 / 3 := by
  intro x hx
  have := h.roots _ (Quadrature.legPoly_isLegendre 2) x hx
  rw [eval_leg2] at this
  rw [sq]
  linarith

/-- **Finding.** The canonical stiffness quadrature of a bilinear quadrilateral is not exact, contrary to its documentation: for the
(convex, positively oriented) trapezoid with vertices `(-1,-1)`, `(1,-1)`, `(3,1)`, `(-3,1)` the first entry of the element matrix is too small. -/
theorem C88_stiffness_not_exact (gauss : Nat → Quadrature.Rule 1 ℝ) (h2 : IsGaussRule 2 (gauss 2).1 (gauss 2).2) (u : List ℝ)
    (hu : u.length = 4) (out0 : Mat ℝ) :
    ∃ vertices : List (Point 2 ℝ), vertices.length = 4 ∧
      (∀ x, InReferenceCube x → 0 < ((elementOfKind .quad4 vertices).jacobian x).det) ∧
      ∃ rule A, stiffnessRule gauss .quad4 = some rule ∧
        ellipticMatrix (elementOfKind .quad4 vertices) (laplace 2 ℝ) u rule.1 rule.2 (List.replicate rule.2.length ()) out0 = some (.ok A) ∧
        A 0 0 < stiffnessIntegral .quad4 (elementOfKind .quad4 vertices) 0 0 := by
  have hpos : ∀ x : Point 2 ℝ, InReferenceCube x → -2 < x 1 := fun x hx => by
    have := (abs_le.mp (hx 1)).1
    linarith
  have hin := quadrilateral_inside h2
  refine ⟨trapezoid, rfl, fun x hx => by rw [trapezoid_det]; linarith [hpos x hx], Quadrature.quadrilateral (gauss 2), ?_⟩
  obtain ⟨A, hA, hAe⟩ := stiffness_entry (elementOfKind .quad4 trapezoid) (elementOfKind_wellFormed _ _) (Quadrature.quadrilateral (gauss 2))
    (quadrilateral_length _) u hu out0 (fun x hx => by rw [trapezoid_det]; have := hpos x (hin x hx); intro h0; linarith)
  refine ⟨A, rfl, hA, ?_⟩
  rw [hAe 0 0 (by decide) (by decide)]
  set P : (Fin 2 → ℝ) → ℝ := fun x => (1 + x 0 * x 0) / 16 * (x 1 - 4 - 81 / 121 * (x 1 ^ 3 - 2 * x 1 ^ 2 + 10 / 3 * x 1 - 20 / 3)) -
    2 * x 0 * (1 - x 1) * (1 - x 0) / 16 + (2 + x 1) * (1 - x 0) ^ 2 / 16 with hP
  have hpts : ∀ x ∈ (Quadrature.quadrilateral (gauss 2)).2, x 1 ^ 2 = 1 / 3 := by
    intro x hx
    simp only [Quadrature.quadrilateral, List.mem_map, List.mem_flatMap] at hx
    obtain ⟨-, ⟨a, ha, b, hb, rfl⟩, rfl⟩ := hx
    exact gauss_two_points h2 b.2 (List.of_mem_zip hb).2
  have hpoly : PolyVar (fun _ => 3) P := by
    have hx2 : PolyVar (Pi.single (0 : Fin 2) 2) fun x : Fin 2 → ℝ => (1 + x 0 * x 0) / 16 :=
      (PolyVar.univariate 0 (1 / 16) 0 (1 / 16)).congr fun x => by ring
    have hy3 : PolyVar (Pi.single (1 : Fin 2) 3) fun x : Fin 2 → ℝ => x 1 - 4 - 81 / 121 * (x 1 ^ 3 - 2 * x 1 ^ 2 + 10 / 3 * x 1 - 20 / 3) := by
      have h3 := ((PolyVar.univariate (1 : Fin 2) (-81 / 121) (162 / 121) (1 - 270 / 121)).mul (PolyVar.coord 1)).mono
        (w := Pi.single (1 : Fin 2) 3) (by decide)
      exact (h3.add (PolyVar.const _ (-4 + 81 / 121 * (20 / 3)))).congr fun x => by ring
    have hm := ((PolyVar.univariate (0 : Fin 2) (-1) 1 0).mul (PolyVar.linear (1 : Fin 2) (-1 / 8) (1 / 8))).mono (w := fun _ => 3) (by decide)
    have hl := ((PolyVar.univariate (0 : Fin 2) 1 (-2) 1).mul (PolyVar.linear (1 : Fin 2) (1 / 16) (1 / 8))).mono (w := fun _ => 3) (by decide)
    exact ((((hx2.mul hy3).mono (by decide)).sub hm).add hl).congr fun x => by rw [hP]; ring
  have hq : ruleSum (Quadrature.quadrilateral (gauss 2)) P = Fenris.Spec.squareIntegral P :=
    exact_tensor (Quadrature.C41_quadrilateral_exact _ 3 (gauss_base h2)) hpoly fun _ => le_rfl
  rw [ruleSum_congr _ (g := P) fun x hx => by
    rw [trapezoid_integrand x (hpos x (hin x hx)), sub_eq_zero.mpr (hpts x hx)]; simp only [hP]; ring, hq]
  set k : ℝ := ∫ y in (-1 : ℝ)..1, (y ^ 2 - 1 / 3) ^ 2 / (2 + y) with hk
  have hne : ∀ y ∈ Set.uIcc (-1 : ℝ) 1, (2 : ℝ) + y ≠ 0 := by
    intro y hy
    rw [Set.uIcc_of_le (by norm_num)] at hy
    have := hy.1
    intro h; linarith
  have hint : IntervalIntegrable (fun y : ℝ => (y ^ 2 - 1 / 3) ^ 2 / (2 + y)) MeasureTheory.volume (-1) 1 := by
    apply ContinuousOn.intervalIntegrable
    exact ContinuousOn.div (by fun_prop) (by fun_prop) hne
  have hkpos : 0 < k := by
    have h1 : ∫ y in (-1 : ℝ)..1, (y ^ 2 - 1 / 3) ^ 2 / 3 ≤ k := by
      refine intervalIntegral.integral_mono_on (by norm_num) (by apply Continuous.intervalIntegrable; fun_prop) hint fun y hy => ?_
      have ha : 0 < 2 + y := by linarith [hy.1]
      have hb : 2 + y ≤ 3 := by linarith [hy.2]
      exact div_le_div_of_nonneg_left (sq_nonneg _) ha hb
    have h2 : ∫ y in (-1 : ℝ)..1, (y ^ 2 - 1 / 3) ^ 2 / 3 = 8 / 135 := by
      have e : ∀ y : ℝ, (y ^ 2 - 1 / 3) ^ 2 / 3 = 1 / 3 * y ^ 4 + (-2 / 9 * y ^ 2 + 1 / 27) := fun y => by ring
      simp only [e]
      rw [intervalIntegral.integral_add (by apply Continuous.intervalIntegrable; fun_prop) (by apply Continuous.intervalIntegrable; fun_prop),
        intervalIntegral.integral_add (by apply Continuous.intervalIntegrable; fun_prop) (by apply Continuous.intervalIntegrable; fun_prop),
        intervalIntegral.integral_const_mul, intervalIntegral.integral_const_mul, integral_pow, integral_pow, intervalIntegral.integral_const]
      norm_num
    linarith
  have hex : stiffnessIntegral .quad4 (elementOfKind .quad4 trapezoid) 0 0 =
      Fenris.Spec.squareIntegral P + ∫ x in (-1 : ℝ)..1, 81 / 1936 * (1 + x * x) * k := by
    have e : stiffnessIntegral .quad4 (elementOfKind .quad4 trapezoid) 0 0 =
        Fenris.Spec.squareIntegral fun x => P x + 81 / 1936 * (1 + x 0 * x 0) * ((x 1 ^ 2 - 1 / 3) ^ 2 / (2 + x 1)) :=
      square_congr _ _ fun x hx => trapezoid_integrand x (hpos x hx)
    rw [e]
    unfold Fenris.Spec.squareIntegral
    simp only [hP, Matrix.cons_val_zero, Matrix.cons_val_one]
    have hinner : ∀ x : ℝ, (∫ y in (-1 : ℝ)..1, ((1 + x * x) / 16 * (y - 4 - 81 / 121 * (y ^ 3 - 2 * y ^ 2 + 10 / 3 * y - 20 / 3)) -
          2 * x * (1 - y) * (1 - x) / 16 + (2 + y) * (1 - x) ^ 2 / 16) + 81 / 1936 * (1 + x * x) * ((y ^ 2 - 1 / 3) ^ 2 / (2 + y))) =
        (∫ y in (-1 : ℝ)..1, ((1 + x * x) / 16 * (y - 4 - 81 / 121 * (y ^ 3 - 2 * y ^ 2 + 10 / 3 * y - 20 / 3)) -
          2 * x * (1 - y) * (1 - x) / 16 + (2 + y) * (1 - x) ^ 2 / 16)) + 81 / 1936 * (1 + x * x) * k := by
      intro x
      rw [intervalIntegral.integral_add (by apply Continuous.intervalIntegrable; fun_prop) (hint.const_mul _),
        intervalIntegral.integral_const_mul]
    simp only [hinner]
    refine intervalIntegral.integral_add ?_ (by apply Continuous.intervalIntegrable; fun_prop)
    apply Continuous.intervalIntegrable
    apply intervalIntegral.continuous_parametric_intervalIntegral_of_continuous'
    fun_prop
  rw [hex]
  have hlast : ∫ x in (-1 : ℝ)..1, 81 / 1936 * (1 + x * x) * k = 81 / 1936 * (8 / 3) * k := by
    have e : ∀ x : ℝ, 81 / 1936 * (1 + x * x) * k = 81 / 1936 * k * x ^ 2 + 81 / 1936 * k := fun x => by ring
    simp only [e]
    rw [intervalIntegral.integral_add (by apply Continuous.intervalIntegrable; fun_prop) (by apply Continuous.intervalIntegrable; fun_prop),
      intervalIntegral.integral_const_mul, integral_pow, intervalIntegral.integral_const]
    norm_num
    ring
  rw [hlast]
  linarith

/-! ### Mass of a frustum -/

private theorem cubic_exact {rule : Quadrature.Rule 1 ℝ} (h : IsGaussRule 2 rule.1 rule.2) (a b c e : ℝ) :
    Quadrature.integrate rule (fun p => a + b * p 0 + c * p 0 ^ 2 + e * p 0 ^ 3) = 2 * a + 2 / 3 * c := by
  set q : ℝ[X] := Polynomial.C a + Polynomial.C b * X + Polynomial.C c * X ^ 2 + Polynomial.C e * X ^ 3 with hq
  have hd : q.natDegree ≤ 3 := by rw [hq]; compute_degree
  have := gauss_base h q hd
  rw [integral_poly q (show q.natDegree < 4 by omega)] at this
  simp only [hq, eval_add, eval_mul, eval_C, eval_pow, eval_X, Finset.sum_range_succ, Finset.sum_range_zero] at this
  rw [this]
  simp [coeff_X, coeff_C, coeff_X_pow]
  ring

/-- The frustum of a pyramid with the given vertices. -/
private def frustum : List (Point 3 ℝ) :=
  [![-2, -2, -1], ![2, -2, -1], ![2, 2, -1], ![-2, 2, -1], ![-4, -4, 1], ![4, -4, 1], ![4, 4, 1], ![-4, 4, 1]]

private theorem frustum_jacobian (x : Point 3 ℝ) : (elementOfKind .hex8 frustum).jacobian x = !![3 + x 2, 0, x 0; 0, 3 + x 2, x 1; 0, 0, 1] := by
  ext r c
  fin_cases r <;> fin_cases c <;>
    simp [elementOfKind, frustum, Element.referenceJacobian, Element.weightedSum, Element.geometryGradients, Element.hex8Gradients,
      Element.hex8PhiGrad, Element.phiLinear1d, Element.phiLinear1dGrad, Element.Kind.numNodes] <;> ring

private theorem frustum_det (x : Point 3 ℝ) : ((elementOfKind .hex8 frustum).jacobian x).det = (3 + x 2) ^ 2 := by
  rw [frustum_jacobian, Matrix.det_fin_three]
  simp
  ring

/-- **Finding.** The canonical mass quadrature of a trilinear hexahedron is not exact, contrary to its documentation: for the frustum with
the corners `(±2, ±2, -1)` and `(±4, ±4, 1)` the first entry of the element mass matrix is too small by `8/405`. -/
theorem C88_mass_not_exact (gauss : Nat → Quadrature.Rule 1 ℝ) (h2 : IsGaussRule 2 (gauss 2).1 (gauss 2).2) (out0 : Mat ℝ) :
    ∃ vertices : List (Point 3 ℝ), vertices.length = 8 ∧
      (∀ x, InReferenceCube x → 0 < ((elementOfKind .hex8 vertices).jacobian x).det) ∧
      ∃ rule M, massRule gauss .hex8 = some rule ∧
        massMatrix (elementOfKind .hex8 vertices) 1 rule.1 rule.2 (List.replicate rule.2.length 1) out0 = some M ∧
        massIntegral .hex8 (elementOfKind .hex8 vertices) 0 0 - M 0 0 = 8 / 405 := by
  refine ⟨frustum, rfl, fun x hx => by
    rw [frustum_det]
    have := (abs_le.mp (hx 2)).1
    nlinarith, Quadrature.hexahedron (gauss 2), ?_⟩
  obtain ⟨M, hM, hMe⟩ := mass_entry (elementOfKind .hex8 frustum) (elementOfKind_wellFormed _ _) 1 (Quadrature.hexahedron (gauss 2))
    (hexahedron_length _) 1 out0
  refine ⟨M, rfl, hM, ?_⟩
  have h00 := hMe 0 0 0 0 (by decide) (by decide)
  simp only [Fin.val_zero, Nat.add_zero, if_true, one_mul] at h00
  rw [h00]
  have hf : ∀ x : Point 3 ℝ, ((elementOfKind .hex8 frustum).basis x)[0]?.getD 0 * ((elementOfKind .hex8 frustum).basis x)[0]?.getD 0 *
      |((elementOfKind .hex8 frustum).jacobian x).det| =
      ((1 - x 0) / 2) ^ 2 * ((1 - x 1) / 2) ^ 2 * (((1 - x 2) / 2) ^ 2 * (3 + x 2) ^ 2) := by
    intro x
    rw [frustum_det, abs_of_nonneg (sq_nonneg _)]
    simp [elementOfKind, Element.basis, Element.hex8Basis, Element.hex8Phi, Element.phiLinear1d]
    ring
  unfold massIntegral
  simp only [hf]
  have hprod : ruleSum (Quadrature.hexahedron (gauss 2)) (fun x : Point 3 ℝ => ((1 - x 0) / 2) ^ 2 * ((1 - x 1) / 2) ^ 2 * (((1 - x 2) / 2) ^ 2 * (3 + x 2) ^ 2)) =
      Quadrature.integrate (gauss 2) (fun p => ((1 - p 0) / 2) ^ 2) * Quadrature.integrate (gauss 2) (fun p => ((1 - p 0) / 2) ^ 2) *
        Quadrature.integrate (gauss 2) (fun p => ((1 - p 0) / 2) ^ 2 * (3 + p 0) ^ 2) := by
    rw [← Quadrature.C41_hexahedron_product (gauss 2) (fun t => ((1 - t) / 2) ^ 2) (fun t => ((1 - t) / 2) ^ 2) (fun t => ((1 - t) / 2) ^ 2 * (3 + t) ^ 2),
      ruleSum, Quadrature.integrate, List.zip_eq_zipWith, List.map_zipWith]
  have hcongr : Quadrature.integrate (gauss 2) (fun p => ((1 - p 0) / 2) ^ 2 * (3 + p 0) ^ 2) =
      Quadrature.integrate (gauss 2) (fun p => 20 / 9 + (-3) * p 0 + (-1 / 3) * p 0 ^ 2 + 1 * p 0 ^ 3) := by
    unfold Quadrature.integrate
    congr 1
    refine List.map_congr_left fun q hq => ?_
    have := gauss_two_points h2 q.2 (List.of_mem_zip hq).2
    have h4 : q.2 0 ^ 4 = 2 / 3 * q.2 0 ^ 2 - 1 / 9 := by
      rw [show q.2 0 ^ 4 = (q.2 0 ^ 2) ^ 2 by ring, this]; norm_num
    have e : ((1 - q.2 0) / 2) ^ 2 * (3 + q.2 0) ^ 2 = (q.2 0 ^ 4 + 4 * q.2 0 ^ 3 - 2 * q.2 0 ^ 2 - 12 * q.2 0 + 9) / 4 := by ring
    show q.1 * (((1 - q.2 0) / 2) ^ 2 * (3 + q.2 0) ^ 2) = q.1 * (20 / 9 + -3 * q.2 0 + -1 / 3 * q.2 0 ^ 2 + 1 * q.2 0 ^ 3)
    rw [e, h4]
    ring
  have ha : Quadrature.integrate (gauss 2) (fun p => ((1 - p 0) / 2) ^ 2) = 2 / 3 := by
    have := cubic_exact h2 (1 / 4) (-1 / 2) (1 / 4) 0
    rw [show (2 / 3 : ℝ) = 2 * (1 / 4) + 2 / 3 * (1 / 4) by norm_num, ← this]
    congr 1
    funext p
    ring
  rw [hprod, ha, hcongr, cubic_exact h2]
  have ia : ∫ x in (-1 : ℝ)..1, ((1 - x) / 2) ^ 2 = 2 / 3 := by
    have e : ∀ x : ℝ, ((1 - x) / 2) ^ 2 = 1 / 4 * x ^ 2 + (-1 / 2 * x ^ 1 + 1 / 4) := fun x => by ring
    simp only [e]
    rw [intervalIntegral.integral_add (by apply Continuous.intervalIntegrable; fun_prop) (by apply Continuous.intervalIntegrable; fun_prop),
      intervalIntegral.integral_add (by apply Continuous.intervalIntegrable; fun_prop) (by apply Continuous.intervalIntegrable; fun_prop),
      intervalIntegral.integral_const_mul, intervalIntegral.integral_const_mul, integral_pow, integral_pow, intervalIntegral.integral_const]
    norm_num
  have ik : ∫ x in (-1 : ℝ)..1, ((1 - x) / 2) ^ 2 * (3 + x) ^ 2 = 64 / 15 := by
    have e : ∀ x : ℝ, ((1 - x) / 2) ^ 2 * (3 + x) ^ 2 = 1 / 4 * x ^ 4 + (1 * x ^ 3 + (-1 / 2 * x ^ 2 + (-3 * x ^ 1 + 9 / 4))) := fun x => by ring
    simp only [e]
    rw [intervalIntegral.integral_add (by apply Continuous.intervalIntegrable; fun_prop) (by apply Continuous.intervalIntegrable; fun_prop),
      intervalIntegral.integral_add (by apply Continuous.intervalIntegrable; fun_prop) (by apply Continuous.intervalIntegrable; fun_prop),
      intervalIntegral.integral_add (by apply Continuous.intervalIntegrable; fun_prop) (by apply Continuous.intervalIntegrable; fun_prop),
      intervalIntegral.integral_add (by apply Continuous.intervalIntegrable; fun_prop) (by apply Continuous.intervalIntegrable; fun_prop),
      intervalIntegral.integral_const_mul, intervalIntegral.integral_const_mul, intervalIntegral.integral_const_mul,
      intervalIntegral.integral_const_mul, integral_pow, integral_pow, integral_pow, integral_pow, intervalIntegral.integral_const]
    norm_num
  have hcube : referenceIntegral .hex8 (fun x => ((1 - x 0) / 2) ^ 2 * ((1 - x 1) / 2) ^ 2 * (((1 - x 2) / 2) ^ 2 * (3 + x 2) ^ 2)) =
      2 / 3 * (2 / 3) * (64 / 15) := by
    simp only [referenceIntegral, Fenris.Spec.cubeIntegral, Matrix.cons_val_zero, Matrix.cons_val_one, Matrix.cons_val]
    simp only [intervalIntegral.integral_const_mul, intervalIntegral.integral_mul_const, ia, ik]
  rw [hcube]
  norm_num

/-- Sanity: the hypotheses on hexahedra are met by an extruded trapezoid. -/
example : ∃ vertices : List (Point 3 ℝ),
    (∃ q : MvPolynomial (Fin 3) ℝ, (∀ i, q.degreeOf i ≤ 1) ∧ ∀ x, ((elementOfKind .hex8 vertices).jacobian x).det = MvPolynomial.eval x q) ∧
    ∀ x, InReferenceCube x → 0 ≤ ((elementOfKind .hex8 vertices).jacobian x).det := by
  have hJ : ∀ x : Point 3 ℝ, ((elementOfKind .hex8 ([![-1, -1, -1], ![1, -1, -1], ![3, 1, -1], ![-3, 1, -1], ![-1, -1, 1], ![1, -1, 1],
      ![3, 1, 1], ![-3, 1, 1]] : List (Point 3 ℝ))).jacobian x).det = 1 * x 1 + 2 := by
    intro x
    rw [Matrix.det_fin_three]
    simp [elementOfKind, Element.referenceJacobian, Element.weightedSum, Element.geometryGradients, Element.hex8Gradients,
      Element.hex8PhiGrad, Element.phiLinear1d, Element.phiLinear1dGrad, Element.Kind.numNodes]
    ring
  refine ⟨[![-1, -1, -1], ![1, -1, -1], ![3, 1, -1], ![-3, 1, -1], ![-1, -1, 1], ![1, -1, 1], ![3, 1, 1], ![-3, 1, 1]], ?_, fun x hx => ?_⟩
  · exact ((PolyVar.linear (1 : Fin 3) 1 2).mono (w := fun _ => 1) (by decide)).congr hJ
  · rw [hJ]
    have := (abs_le.mp (hx 1)).1
    linarith

/-- Sanity: a tetrahedron that meets the hypothesis of `C88_stiffness_simplex`. -/
example : ((elementOfKind .tet10 ([![0, 0, 0], ![2, 0, 0], ![1, 3, 0], ![0, 1, 4]] : List (Point 3 ℝ))).jacobian 0).det ≠ 0 := by
  rw [Matrix.det_fin_three]
  simp [elementOfKind, Element.referenceJacobian, Element.weightedSum, Element.geometryGradients, Element.tet4Gradients,
    Element.tet4G, Element.Kind.numNodes]

end Fenris.Canonical
