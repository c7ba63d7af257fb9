import Verif.Props.DirichletPrinciple
import Verif.Props.Elasticity
import Verif.Props.Equilibrium
/-! # C111: superposition, reciprocity and stiffness of computed solutions -/
set_option autoImplicit false
set_option linter.unusedSectionVars false

namespace Fenris.Reciprocity
open Fenris.Element Fenris.Local Fenris.Local.Spec Fenris.PatchTest Fenris.PatchTest.Spec Fenris.LinearProblem Fenris.LinearProblem.Spec Quadrature
open Fenris.Spec Fenris.Elasticity Fenris.Elasticity.Spec Fenris.Solid Fenris.Mass

attribute [local instance] zeroFill

variable {K : Type} [Field K] [LinearOrder K] [IsStrictOrderedRing K] {d s : Nat} {Param Param' : Type} [Inhabited Param] [Inhabited Param']

/-! ## Quadratic forms -/

private def form (n : Nat) (A : Nat → Nat → K) (v w : Nat → K) : K := ∑ r ∈ Finset.range n, ∑ c ∈ Finset.range n, v r * A r c * w c

private theorem form_symm {n : Nat} {A : Nat → Nat → K} (hA : ∀ r c, A r c = A c r) (v w : Nat → K) : form n A v w = form n A w v := by
  unfold form
  rw [Finset.sum_comm]
  exact Finset.sum_congr rfl fun r _ => Finset.sum_congr rfl fun c _ => by rw [hA]; ring

/-- The work of the loads on displacements that respect the supports. -/
private theorem form_solves {n : Nat} {A : Nat → Nat → K} {b x v : Nat → K} {nodes : List Nat} (hx : SolvesConstrained n s nodes A b x)
    (hv : ∀ r, r < n → Constrained s nodes r → v r = 0) : form n A v x = ∑ r ∈ Finset.range n, b r * v r := by
  unfold form
  refine Finset.sum_congr rfl fun r hr => ?_
  by_cases h : Constrained s nodes r
  · rw [hv r (Finset.mem_range.1 hr) h]
    simp
  · rw [← hx.2 r (Finset.mem_range.1 hr) h, mul_comm, Finset.mul_sum]
    exact Finset.sum_congr rfl fun c _ => by ring

private theorem form_sub {n : Nat} {A : Nat → Nat → K} (hA : ∀ r c, A r c = A c r) (x v : Nat → K) :
    form n A (fun r => x r - v r) (fun r => x r - v r) = form n A x x - 2 * form n A v x + form n A v v := by
  have e : form n A (fun r => x r - v r) (fun r => x r - v r) = form n A x x - form n A v x - form n A x v + form n A v v := by
    unfold form
    rw [← Finset.sum_sub_distrib, ← Finset.sum_sub_distrib, ← Finset.sum_add_distrib]
    refine Finset.sum_congr rfl fun r _ => ?_
    rw [← Finset.sum_sub_distrib, ← Finset.sum_sub_distrib, ← Finset.sum_add_distrib]
    exact Finset.sum_congr rfl fun c _ => by ring
  rw [e, form_symm hA x v]
  ring

/-- The work of the loads on the solution is the greatest value of `2 b·v - vᵀ A v`. -/
private theorem compliance {n : Nat} {A : Nat → Nat → K} (hA : ∀ r c, A r c = A c r) (hpos : ∀ v : Nat → K, 0 ≤ form n A v v) {b x v : Nat → K}
    {nodes : List Nat} (hx : SolvesConstrained n s nodes A b x) (hv : ∀ r, r < n → Constrained s nodes r → v r = 0) :
    2 * ∑ r ∈ Finset.range n, b r * v r - form n A v v ≤ ∑ r ∈ Finset.range n, b r * x r := by
  have h1 := hpos fun r => x r - v r
  rw [form_sub hA, form_solves hx hv, form_solves hx hx.1] at h1
  linarith

variable {space : Space d K} {N : Nat} {table : Table (Point d K) K Param} {rules : Nat → List (QPoint d K Param)} {u : List K}
  {o : Operator d s K Param} {nodes : List Nat}

private theorem list_form (n : Nat) (A : Nat → Nat → K) (v : Nat → K) :
    form n A v v = ∑ r ∈ Finset.range n, ∑ c ∈ Finset.range n, ((List.range n).map v).getD r 0 * A r c * ((List.range n).map v).getD c 0 := by
  unfold form
  refine Finset.sum_congr rfl fun r hr => Finset.sum_congr rfl fun c hc => ?_
  rw [getD_map_range _ (Finset.mem_range.1 hr), getD_map_range _ (Finset.mem_range.1 hc)]

/-- **C111.** Superposition and reciprocity (Betti): let `x` and `x'` solve the assembled equations with the loads `b` and `b'`. Then linear
combinations of the solutions solve the equations with the same linear combinations of the loads, and the work that `b` does on `x'` is the work
that `b'` does on `x`. -/
theorem C111_reciprocity (h : Setting space N table rules u o nodes)
    (ord : List Nat → List Nat) (hord : ∀ l, (ord l).Perm l)
    (sortNodes : List (Nat × Nat) → List (Nat × Nat)) (hsort : SortsNodes sortNodes)
    (bufs : Nat → Buffer (Point d K) K Param) (outs : Nat → Mat K) (elemMat : Nat → Except String (Mat K))
    (hem : ∀ e, e < space.length → ∃ buf', elementMatrix space o table u (bufs e) (outs e) e = some (elemMat e, buf')) :
    ∃ m, Assembly.assemble ord sortNodes ⟨s, N, space.map (·.2)⟩ elemMat = some (.ok m) ∧ ∀ b b' x x' : Nat → K,
      SolvesConstrained (s * N) s nodes (entry m) b x → SolvesConstrained (s * N) s nodes (entry m) b' x' →
      (∀ α β : K, SolvesConstrained (s * N) s nodes (entry m) (fun r => α * b r + β * b' r) (fun r => α * x r + β * x' r)) ∧
      ∑ r ∈ Finset.range (s * N), b r * x' r = ∑ r ∈ Finset.range (s * N), b' r * x r := by
  obtain ⟨m, h1, -, -, -, -, -, hsym, -⟩ := assembled h ord hord sortNodes hsort bufs outs elemMat hem
  refine ⟨m, h1, fun b b' x x' hx hx' => ⟨fun α β => ⟨fun r hr hc => ?_, fun r hr hc => ?_⟩, ?_⟩⟩
  · beta_reduce
    rw [hx.1 r hr hc, hx'.1 r hr hc]
    ring
  · beta_reduce
    rw [← hx.2 r hr hc, ← hx'.2 r hr hc, Finset.mul_sum, Finset.mul_sum, ← Finset.sum_add_distrib]
    exact Finset.sum_congr rfl fun c _ => by ring
  · rw [← form_solves hx hx'.1, ← form_solves hx' hx.1, form_symm hsym]

/-- **C111.** The energy of a solution, as the scalar assembler computes it, is half the work of the loads (Clapeyron). -/
theorem C111_energy (h : Setting space N table rules u o nodes) (henergy : ∀ G param, 2 * o.energy G param = density o param G)
    (ord : List Nat → List Nat) (hord : ∀ l, (ord l).Perm l)
    (sortNodes : List (Nat × Nat) → List (Nat × Nat)) (hsort : SortsNodes sortNodes)
    (bufs : Nat → Buffer (Point d K) K Param) (outs : Nat → Mat K) (elemMat : Nat → Except String (Mat K))
    (hem : ∀ e, e < space.length → ∃ buf', elementMatrix space o table u (bufs e) (outs e) e = some (elemMat e, buf')) :
    ∃ m, Assembly.assemble ord sortNodes ⟨s, N, space.map (·.2)⟩ elemMat = some (.ok m) ∧ ∀ (b : Nat → K) (x : List K), x.length = s * N →
      SolvesConstrained (s * N) s nodes (entry m) b (fun r => x.getD r 0) →
      ∀ (bufs' : Nat → Buffer (Point d K) K Param) (elem : Nat → Except String K),
      (∀ e, e < space.length → ∃ buf', elementEnergy space o table x (bufs' e) e = some (elem e, buf')) →
      ∃ E, Assembly.assembleScalar space.length elem = .ok E ∧ 2 * E = ∑ r ∈ Finset.range (s * N), b r * x.getD r 0 := by
  obtain ⟨m, h1, -, -, -, -, -, hsym, hform⟩ := assembled h ord hord sortNodes hsort bufs outs elemMat hem
  refine ⟨m, h1, fun b x hl hx bufs' elem hee => ?_⟩
  have hd : Discretisation space N table rules x s := { h.disc with uLength := hl }
  refine ⟨_, (C69_global_energy space N table rules x hd o bufs' elem hee .leaf).1, ?_⟩
  rw [← form_solves hx hx.1, form, hform, Finset.mul_sum]
  refine Finset.sum_congr rfl fun e _ => ?_
  unfold quadSum
  rw [← List.sum_map_mul_left]
  congr 1
  refine List.map_congr_left fun q _ => ?_
  beta_reduce
  rw [← henergy]
  ring

/-- **C111.** More supports make a body stiffer: if values are prescribed at more nodes, then the same loads do not do more work; the work of
the loads is never negative. -/
theorem C111_supports_stiffen (h : Setting space N table rules u o nodes)
    (ord : List Nat → List Nat) (hord : ∀ l, (ord l).Perm l)
    (sortNodes : List (Nat × Nat) → List (Nat × Nat)) (hsort : SortsNodes sortNodes)
    (bufs : Nat → Buffer (Point d K) K Param) (outs : Nat → Mat K) (elemMat : Nat → Except String (Mat K))
    (hem : ∀ e, e < space.length → ∃ buf', elementMatrix space o table u (bufs e) (outs e) e = some (elemMat e, buf')) :
    ∃ m, Assembly.assemble ord sortNodes ⟨s, N, space.map (·.2)⟩ elemMat = some (.ok m) ∧ ∀ (nodes' : List Nat) (b x x' : Nat → K), nodes ⊆ nodes' →
      SolvesConstrained (s * N) s nodes (entry m) b x → SolvesConstrained (s * N) s nodes' (entry m) b x' →
      0 ≤ ∑ r ∈ Finset.range (s * N), b r * x' r ∧
        ∑ r ∈ Finset.range (s * N), b r * x' r ≤ ∑ r ∈ Finset.range (s * N), b r * x r := by
  obtain ⟨m, h1, -, -, -, -, -, hsym, hform⟩ := assembled h ord hord sortNodes hsort bufs outs elemMat hem
  have hpos : ∀ v : Nat → K, 0 ≤ form (s * N) (entry m) v v := by
    intro v
    rw [list_form, hform]
    exact Finset.sum_nonneg fun e _ => energy_nonneg h _ e
  refine ⟨m, h1, fun nodes' b x x' hsub hx hx' => ?_⟩
  have hc : ∀ r, Constrained s nodes r → Constrained s nodes' r := fun r ⟨n, hn, i, hi⟩ => ⟨n, hsub hn, i, hi⟩
  have e := form_solves hx' hx'.1
  refine ⟨by rw [← e]; exact hpos x', ?_⟩
  have := compliance hsym hpos hx fun r hr hcr => hx'.1 r hr (hc r hcr)
  rw [e] at this
  linarith

/-- **C111.** A stiffer material makes a body stiffer: if at all quadrature points no gradient has less energy, then the same loads with the same
supports do not do more work. -/
theorem C111_material_stiffens {table' : Table (Point d K) K Param'} {rules' : Nat → List (QPoint d K Param')} {o' : Operator d s K Param'}
    (h : Setting space N table rules u o nodes) {u' : List K} (h' : Setting space N table' rules' u' o' nodes)
    (hstiff : ∀ e, e < space.length → List.Forall₂ (fun (q : QPoint d K Param) (q' : QPoint d K Param') => q.1 = q'.1 ∧ q.2.1 = q'.2.1 ∧
      ∀ G, density o q.2.2 G ≤ density o' q'.2.2 G) (rules e) (rules' e))
    (ord ord' : List Nat → List Nat) (hord : ∀ l, (ord l).Perm l) (hord' : ∀ l, (ord' l).Perm l)
    (sortNodes sortNodes' : List (Nat × Nat) → List (Nat × Nat)) (hsort : SortsNodes sortNodes) (hsort' : SortsNodes sortNodes')
    (bufs : Nat → Buffer (Point d K) K Param) (outs : Nat → Mat K) (elemMat : Nat → Except String (Mat K))
    (hem : ∀ e, e < space.length → ∃ buf', elementMatrix space o table u (bufs e) (outs e) e = some (elemMat e, buf'))
    (bufs' : Nat → Buffer (Point d K) K Param') (outs' : Nat → Mat K) (elemMat' : Nat → Except String (Mat K))
    (hem' : ∀ e, e < space.length → ∃ buf', elementMatrix space o' table' u' (bufs' e) (outs' e) e = some (elemMat' e, buf')) :
    ∃ m m', Assembly.assemble ord sortNodes ⟨s, N, space.map (·.2)⟩ elemMat = some (.ok m) ∧
      Assembly.assemble ord' sortNodes' ⟨s, N, space.map (·.2)⟩ elemMat' = some (.ok m') ∧ ∀ b x x' : Nat → K,
      SolvesConstrained (s * N) s nodes (entry m) b x → SolvesConstrained (s * N) s nodes (entry m') b x' →
      ∑ r ∈ Finset.range (s * N), b r * x' r ≤ ∑ r ∈ Finset.range (s * N), b r * x r := by
  obtain ⟨m, h1, -, -, -, -, -, hsym, hform⟩ := assembled h ord hord sortNodes hsort bufs outs elemMat hem
  obtain ⟨m', h1', -, -, -, -, -, hsym', hform'⟩ := assembled h' ord' hord' sortNodes' hsort' bufs' outs' elemMat' hem'
  have hpos : ∀ v : Nat → K, 0 ≤ form (s * N) (entry m) v v := by
    intro v
    rw [list_form, hform]
    exact Finset.sum_nonneg fun e _ => energy_nonneg h _ e
  have hle : ∀ v : Nat → K, form (s * N) (entry m) v v ≤ form (s * N) (entry m') v v := by
    intro v
    rw [list_form, list_form, hform, hform']
    refine Finset.sum_le_sum fun e _ => ?_
    have hq := hstiff e e.2
    have hw := h.weights e e.2
    unfold quadSum
    generalize (rules e : List (QPoint d K Param)) = l at hq hw
    generalize (rules' e : List (QPoint d K Param')) = l' at hq
    induction hq with
    | nil => exact le_rfl
    | @cons q q' l l' hqq _ ih =>
      simp only [List.map_cons, List.sum_cons]
      refine add_le_add ?_ (ih fun q hq => hw q (List.mem_cons_of_mem _ hq))
      rw [← hqq.1, ← hqq.2.1]
      exact mul_le_mul_of_nonneg_left (hqq.2.2 _) (mul_nonneg (hw q List.mem_cons_self).le (abs_nonneg _))
  refine ⟨m, m', h1, h1', fun b x x' hx hx' => ?_⟩
  have e := form_solves hx' hx'.1
  have := compliance hsym hpos hx hx'.1
  have := hle x'
  linarith

/-- **C111.** Linear elastic materials: with larger Lamé parameters no displacement gradient has less energy. -/
theorem C111_elastic {d : Nat} (p p' : Lame ℝ) (hmu : p.mu ≤ p'.mu) (hlambda : p.lambda ≤ p'.lambda) (G : Matrix (Fin d) (Fin d) ℝ) :
    density (leOperator d) p G ≤ density (leOperator d) p' G := by
  rw [le_density, le_density]
  have h1 : 0 ≤ ∑ k, ∑ i, (G i k + G k i) ^ 2 := Finset.sum_nonneg fun k _ => Finset.sum_nonneg fun i _ => sq_nonneg _
  have h2 := mul_le_mul_of_nonneg_right hmu h1
  have h3 := mul_le_mul_of_nonneg_right hlambda (sq_nonneg (∑ m, G m m))
  linarith

/-! ## One triangle -/

section plate
open Fenris.Equilibrium

-- The hypotheses hold for the triangle of C105 with an elastic material of any positive moduli and two of its nodes held; making the material stiffer
-- in the sense of the theorem is possible.
private theorem plate_setting [Inhabited (Lame ℝ)] (p : Lame ℝ) (hmu : 0 < p.mu) (hlambda : 0 ≤ p.lambda) :
    Setting plateSpace 3 (Uniform.table ⟨[![0, 0]], [2], [p]⟩) (fun _ => [(2, ![0, 0], p)]) stretch (leOperator 2) [0, 1] where
  dim := by decide
  disc := plate_disc p stretch rfl
  nodup := by
    intro en hen
    obtain rfl := List.mem_singleton.1 hen
    decide
  weights := by
    intro e _ q hq
    obtain rfl := List.mem_singleton.1 hq
    norm_num
  linear := (C89_linear_operators (K := ℝ) 2).2
  symmetric := rfl
  law := C57_operator_symmetric.1
  nonneg := by
    intro e _ q hq G
    obtain rfl := List.mem_singleton.1 hq
    exact (C99_energy_density p hmu (by positivity) G).1
  constrained := by
    intro n hn
    refine ⟨_, List.mem_singleton.2 rfl, ?_⟩
    simp only [List.mem_cons, List.not_mem_nil, or_false] at hn ⊢
    omega

example [Inhabited (Lame ℝ)] (ord : List Nat → List Nat) (hord : ∀ l, (ord l).Perm l)
    (sortNodes : List (Nat × Nat) → List (Nat × Nat)) (hsort : SortsNodes sortNodes)
    (bufs : Nat → Buffer (Point 2 ℝ) ℝ (Lame ℝ)) (outs : Nat → Mat ℝ) (elemMat elemMat' : Nat → Except String (Mat ℝ))
    (hem : ∀ e, e < plateSpace.length → ∃ buf', elementMatrix plateSpace (leOperator 2) (Uniform.table ⟨[![0, 0]], [2], [(⟨1, 0⟩ : Lame ℝ)]⟩) stretch
      (bufs e) (outs e) e = some (elemMat e, buf'))
    (hem' : ∀ e, e < plateSpace.length → ∃ buf', elementMatrix plateSpace (leOperator 2) (Uniform.table ⟨[![0, 0]], [2], [(⟨3, 2⟩ : Lame ℝ)]⟩) stretch
      (bufs e) (outs e) e = some (elemMat' e, buf')) :
    ∃ m m', Assembly.assemble ord sortNodes ⟨2, 3, plateSpace.map (·.2)⟩ elemMat = some (.ok m) ∧
      Assembly.assemble ord sortNodes ⟨2, 3, plateSpace.map (·.2)⟩ elemMat' = some (.ok m') ∧ ∀ b x x' : Nat → ℝ,
      SolvesConstrained (2 * 3) 2 [0, 1] (entry m) b x → SolvesConstrained (2 * 3) 2 [0, 1] (entry m') b x' →
      ∑ r ∈ Finset.range (2 * 3), b r * x' r ≤ ∑ r ∈ Finset.range (2 * 3), b r * x r :=
  C111_material_stiffens (plate_setting ⟨1, 0⟩ one_pos le_rfl) (plate_setting ⟨3, 2⟩ (by norm_num) (by norm_num)) (fun e _ =>
    .cons ⟨rfl, rfl, C111_elastic _ _ (by norm_num) (by norm_num)⟩ .nil) ord ord hord hord sortNodes sortNodes hsort hsort bufs outs elemMat hem bufs outs
    elemMat' hem'

end plate

end Fenris.Reciprocity
