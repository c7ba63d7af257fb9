import Verif.Spec.NewtonLinear
import Verif.Props.LinearProblem
import Verif.Model.Newton
import Verif.Props.Poisson
/-! # C112: Newton's method solves a linear problem in one step -/
set_option autoImplicit false
set_option linter.unusedSectionVars false

namespace Fenris.NewtonLinear
open Fenris.Local Fenris.Local.Spec Fenris.PatchTest.Spec Fenris.LinearProblem Fenris.LinearProblem.Spec Fenris.NewtonLinear.Spec Quadrature
open Fenris.Spec (matrixContribution vectorContribution entry SortsNodes Constrained Solves SolvesConstrained Stored)
open Cg (Vec)

variable {K : Type} [Field K] [LinearOrder K] [IsStrictOrderedRing K] {d s : Nat} {Param : Type} [Inhabited Param]
variable {space : Space d K} {N : Nat} {table : Table (Point d K) K Param} {rules : Nat → List (QPoint d K Param)} {u : List K}
  {o : Operator d s K Param} {nodes : List Nat}

attribute [local instance] zeroFill

/-! ## The forces of a linear operator are its matrix times the values -/

private theorem sum_matrixContribution (s : Nat) (nodes : List Nat) (A : Mat K) (v : List K) (N : Nat)
    (hb : ∀ n ∈ nodes, n < N) (r : Nat) :
    ∑ c ∈ Finset.range (s * N), matrixContribution s nodes A r c * v.getD c 0
      = ∑ a : Fin nodes.length, ∑ i : Fin s, if s * nodes[a] + i = r then
          ∑ b : Fin nodes.length, ∑ j : Fin s, A (s * a + i) (s * b + j) * v.getD (s * nodes[b] + j) 0 else 0 := by
  simp only [matrixContribution, Finset.sum_mul]
  rw [Finset.sum_comm]
  refine Finset.sum_congr rfl fun a _ => ?_
  rw [Finset.sum_comm]
  refine Finset.sum_congr rfl fun i _ => ?_
  by_cases hri : s * nodes[a] + i = r
  · rw [if_pos hri, Finset.sum_comm]
    refine Finset.sum_congr rfl fun b _ => ?_
    rw [Finset.sum_comm]
    refine Finset.sum_congr rfl fun j _ => ?_
    have hr : s * nodes[b] + j ∈ Finset.range (s * N) := by
      have := Nat.mul_le_mul_left s (Nat.succ_le_of_lt (hb nodes[b] (List.getElem_mem _)))
      rw [Nat.mul_succ] at this
      have := j.2
      rw [Finset.mem_range]
      omega
    rw [Finset.sum_eq_single_of_mem _ hr]
    · rw [if_pos ⟨hri, rfl⟩]
    · intro c _ hne
      rw [if_neg fun hh => hne hh.2.symm, zero_mul]
  · rw [if_neg hri]
    refine Finset.sum_eq_zero fun c _ => Finset.sum_eq_zero fun b _ => Finset.sum_eq_zero fun j _ => ?_
    rw [if_neg fun hh => hri hh.1, zero_mul]

private theorem quadSum_sum {ι : Type} (t : Finset ι) (el : VolElement d K) (rule : List (QPoint d K Param))
    (f : ι → Point d K → Param → K) (w : ι → K) :
    ∑ x ∈ t, quadSum el rule (f x) * w x = quadSum el rule (fun p q => ∑ x ∈ t, f x p q * w x) := by
  unfold quadSum
  induction rule with
  | nil => simp
  | cons q rule ih =>
    rw [List.map_cons, List.sum_cons, ← ih]
    simp only [List.map_cons, List.sum_cons, add_mul, Finset.sum_add_distrib, Finset.mul_sum]
    congr 1
    exact Finset.sum_congr rfl fun k _ => by ring

private theorem op_sum {ι : Type} (t : Finset ι) (o : Operator d s K Param) (ho : IsLinear o) (q : Param)
    (A : ι → Matrix (Fin d) (Fin s) K) (w : ι → K) (k : Fin d) (i : Fin s) :
    ∑ x ∈ t, o.op (A x) q k i * w x = o.op (Matrix.of fun k j => ∑ x ∈ t, A x k j * w x) q k i := by
  classical
  induction t using Finset.induction_on with
  | empty =>
    have := congrFun (congrFun (ho.smul 0 0 q) k) i
    simp only [zero_smul, Matrix.zero_apply] at this
    simp only [Finset.sum_empty]
    exact this.symm
  | insert x t hx ih =>
    rw [Finset.sum_insert hx, ih]
    have e : (Matrix.of fun k j => ∑ y ∈ insert x t, A y k j * w y) = w x • A x + Matrix.of fun k j => ∑ y ∈ t, A y k j * w y := by
      funext k j
      rw [Matrix.of_apply, Finset.sum_insert hx]
      change _ = w x * A x k j + _
      rw [mul_comm]
      rfl
    rw [e, ho.add, ho.smul]
    change _ = w x * _ + _
    rw [mul_comm]

/-- **C112.** The vector assembler applied to a linear operator returns the matrix, assembled at any state, times the nodal values. -/
theorem C112_forces_are_matrix_times_values (h : Setting space N table rules u o nodes)
    (ord : List Nat → List Nat) (hord : ∀ l, (ord l).Perm l)
    (sortNodes : List (Nat × Nat) → List (Nat × Nat)) (hsort : SortsNodes sortNodes)
    (bufs : Nat → Buffer (Point d K) K Param) (outs : Nat → Mat K) (elemMat : Nat → Except String (Mat K))
    (hem : ∀ e, e < space.length → ∃ buf', elementMatrix space o table u (bufs e) (outs e) e = some (elemMat e, buf'))
    (x : List K) (hx : x.length = s * N)
    (bufs' : Nat → Buffer (Point d K) K Param) (outs' : Nat → Nat → K) (elemVec : Nat → Except String (Nat → K))
    (hev : ∀ e, e < space.length → ∃ buf', elementVector space o table x (bufs' e) (outs' e) e = some (elemVec e, buf')) :
    ∃ m, Assembly.assemble ord sortNodes (conn s space N) elemMat = some (.ok m) ∧
      Assembly.assembleVector (conn s space N) elemVec =
        some (.ok ((List.range (s * N)).map fun r => ∑ c ∈ Finset.range (s * N), entry m r c * x.getD c 0)) := by
  have hs := h.dim
  have hdx : Discretisation space N table rules x s := { h.disc with uLength := hx }
  have hdiv : ∀ (I : Nat) (i : Fin s), (s * I + (i : Nat)) / s = I := fun I i => by
    rw [Nat.mul_add_div hs, Nat.div_eq_of_lt i.2, Nat.add_zero]
  have hmod : ∀ (I : Nat) (i : Fin s), (⟨(s * I + (i : Nat)) % s, Nat.mod_lt _ hs⟩ : Fin s) = i := fun I i => by
    refine Fin.ext ?_
    change (s * I + (i : Nat)) % s = i
    rw [Nat.mul_add_mod, Nat.mod_eq_of_lt i.2]
  let stiff : Nat → Mat K := fun e a b => if he : e < space.length then
    quadSum (space[e]).1 (rules e) (fun p q =>
      o.contract (gradU s ((space[e]).1.jacobian p) ((space[e]).1.gradients p) (localPart s u (space[e]).2))
        (physGrad ((space[e]).1.jacobian p) (((space[e]).1.gradients p)[a / s]?.getD 0))
        (physGrad ((space[e]).1.jacobian p) (((space[e]).1.gradients p)[b / s]?.getD 0)) q
        ⟨a % s, Nat.mod_lt _ hs⟩ ⟨b % s, Nat.mod_lt _ hs⟩) else 0
  let force : Nat → Nat → K := fun e a => if he : e < space.length then
    quadSum (space[e]).1 (rules e) (fun p q =>
      ∑ k, o.op (gradU s ((space[e]).1.jacobian p) ((space[e]).1.gradients p) (localPart s x (space[e]).2)) q k ⟨a % s, Nat.mod_lt _ hs⟩ *
        physGrad ((space[e]).1.jacobian p) (((space[e]).1.gradients p)[a / s]?.getD 0) k) else 0
  obtain ⟨m, hm1, hm2⟩ := C69_global_matrix space N table rules u hs h.disc h.nodup o h.law ord hord sortNodes hsort bufs outs elemMat hem stiff
    (by
      intro e el nds he I J i j hI hJ
      obtain ⟨hlt, hee⟩ := List.getElem?_eq_some_iff.1 he
      simp only [stiff, dif_pos hlt, hdiv, hmod, hee])
  have hv := C69_global_vector space N table rules x hdx o bufs' outs' elemVec hev force (by
      intro e el nds he I i hI
      obtain ⟨hlt, hee⟩ := List.getElem?_eq_some_iff.1 he
      simp only [force, dif_pos hlt, hdiv, hmod, hee])
  refine ⟨m, hm1, hv.trans ?_⟩
  congr 2
  apply List.map_congr_left
  intro r _
  simp only [hm2, Finset.sum_mul]
  rw [Finset.sum_comm]
  refine Finset.sum_congr rfl fun e _ => ?_
  have hmem : space[(e : Nat)] ∈ space := List.getElem_mem _
  rw [sum_matrixContribution s (space[e]).2 (stiff e) x N (h.disc.inBounds _ hmem)]
  unfold vectorContribution
  refine Finset.sum_congr rfl fun a _ => Finset.sum_congr rfl fun i _ => ?_
  split_ifs
  swap
  · rfl
  simp only [force, stiff, dif_pos e.2, hdiv, hmod]
  rw [← Fintype.sum_prod_type', quadSum_sum]
  unfold quadSum
  congr 1
  apply List.map_congr_left
  intro q hq
  congr 1
  simp only [h.linear.contract, Finset.sum_mul]
  rw [Finset.sum_comm]
  refine Finset.sum_congr rfl fun k _ => ?_
  simp only [mul_right_comm _ (physGrad _ _ k)]
  rw [← Finset.sum_mul, op_sum _ o h.linear]
  congr 3
  funext k j
  rw [Matrix.of_apply, Fintype.sum_prod_type]
  have hlenG : ((space[(e : Nat)]).1.gradients q.2.1).length = (space[(e : Nat)]).2.length :=
    ((h.disc.wellFormed _ hmem q.2.1).2).trans (h.disc.nodeCount _ hmem).symm
  unfold gradU
  refine Fintype.sum_equiv (finCongr hlenG) _ _ fun I => ?_
  rw [Finset.sum_eq_single j]
  · rw [Matrix.of_apply, if_pos rfl, localPart_getD s x _ I (by have := I.2; omega)]
    simp
  · intro j' _ hj
    rw [Matrix.of_apply, if_neg (Ne.symm hj), zero_mul]
  · simp

/-! ## Newton's method -/

theorem ofFn_getD {n : Nat} (x : Vec n K) (i : Fin n) : (List.ofFn x).getD i 0 = x i := by
  rw [List.getD_eq_getElem?_getD, List.getElem?_eq_getElem (by simp)]
  simp

theorem eq_ofFn {n : Nat} (y : List K) (hy : y.length = n) : List.ofFn (fun i : Fin n => y.getD i 0) = y := by
  apply List.ext_getElem (by simp [hy])
  intro i hi hi'
  simp [List.getD_eq_getElem?_getD, List.getElem?_eq_getElem hi']

theorem setting_at (h : Setting space N table rules u o nodes) (x : Vec (s * N) K) :
    Setting space N table rules (List.ofFn x) o nodes :=
  { h with disc := { h.disc with uLength := by simp } }

private theorem vectors_exist (h : Setting space N table rules u o nodes) (x : Vec (s * N) K) :
    ∃ elemVec : Nat → Except String (Nat → K), ∀ e, e < space.length →
      ∃ buf', elementVector space o table (List.ofFn x) ⟨[], [], []⟩ 0 e = some (elemVec e, buf') := by
  have : ∀ e, ∃ v, e < space.length → ∃ buf', elementVector space o table (List.ofFn x) ⟨[], [], []⟩ 0 e = some (v, buf') := by
    intro e
    by_cases he : e < space.length
    · obtain ⟨v, b, h1, -⟩ := C69_element_vector space N table rules (List.ofFn x) (setting_at h x).disc o ⟨[], [], []⟩ 0 e _ _
        (List.getElem?_eq_getElem he)
      exact ⟨_, fun _ => ⟨b, h1⟩⟩
    · exact ⟨.ok 0, fun h' => absurd h' he⟩
  choose f hf using this
  exact ⟨f, hf⟩

theorem matrices_exist (h : Setting space N table rules u o nodes) (x : Vec (s * N) K) :
    ∃ elemMat : Nat → Except String (Mat K), ∀ e, e < space.length →
      ∃ buf', elementMatrix space o table (List.ofFn x) ⟨[], [], []⟩ 0 e = some (elemMat e, buf') := by
  have : ∀ e, ∃ v, e < space.length → ∃ buf', elementMatrix space o table (List.ofFn x) ⟨[], [], []⟩ 0 e = some (v, buf') := by
    intro e
    by_cases he : e < space.length
    · obtain ⟨v, b, h1, -⟩ := C69_element_matrix space N table rules (List.ofFn x) (setting_at h x).disc o h.law ⟨[], [], []⟩ 0 e _ _
        (List.getElem?_eq_getElem he)
      exact ⟨_, fun _ => ⟨b, h1⟩⟩
    · exact ⟨.ok 0, fun h' => absurd h' he⟩
  choose f hf using this
  exact ⟨f, hf⟩

/-- All assembled forces, in terms of one matrix. -/
theorem forces_eq (h : Setting space N table rules u o nodes) (x₀ : Vec (s * N) K)
    (ord : List Nat → List Nat) (hord : ∀ l, (ord l).Perm l)
    (sortNodes : List (Nat × Nat) → List (Nat × Nat)) (hsort : SortsNodes sortNodes)
    (bufs : Nat → Buffer (Point d K) K Param) (outs : Nat → Mat K) (elemMat : Nat → Except String (Mat K))
    (hem : ∀ e, e < space.length → ∃ buf', elementMatrix space o table (List.ofFn x₀) (bufs e) (outs e) e = some (elemMat e, buf'))
    (m : Assembly.Csr K) (hm : Assembly.assemble ord sortNodes (conn s space N) elemMat = some (.ok m))
    (x : Vec (s * N) K) (forces : List K) (hf : Forces space N table o x forces) :
    forces.length = s * N ∧ ∀ r, r < s * N → forces[r]? = some (∑ c : Fin (s * N), entry m r c * x c) := by
  obtain ⟨bufs', outs', elemVec, hev, hfo⟩ := hf
  obtain ⟨m₁, h1, h2⟩ := C112_forces_are_matrix_times_values (setting_at h x₀) ord hord sortNodes hsort bufs outs elemMat hem (List.ofFn x)
    (by simp) bufs' outs' elemVec hev
  rw [hm] at h1
  obtain rfl : m = m₁ := by injection h1 with h1; injection h1
  have hfo' : Assembly.assembleVector (conn s space N) elemVec = some (.ok forces) := hfo
  rw [h2] at hfo'
  obtain rfl : _ = forces := by injection hfo' with h1; injection h1
  refine ⟨by simp, fun r hr => ?_⟩
  rw [List.getElem?_map, List.getElem?_range hr, Option.map_some, Finset.sum_range]
  simp only [ofFn_getD]

/-- **C112.** Newton's method on a linear problem, everything computed by the library: the residual by the vector assembler and the
homogeneous conditions, the Jacobian systems by the matrix assembler, the homogeneous conditions and the conjugate gradient solver. From
any start, without or with backtracking, it returns `Ok` after at most one step: after none, with the start, exactly if the residual was
small enough there; after one, with the function that has the values of the start at the prescribed nodes and whose internal forces are
equal to the loads in all other degrees of freedom. There is only one such function. -/
theorem C112_newton {E : Type} (h : Problem space N table rules u o nodes) (load : List K) (hload : load.length = s * N)
    (residual : Vec (s * N) K → Vec (s * N) K) (hres : ComputesResidual space N table o nodes load residual)
    (cgNorm : List K → K) (hpos : ∀ v, 0 ≤ cgNorm v) (hzero : ∀ v, cgNorm v = 0 ↔ ∀ a ∈ v, a = 0)
    (solve : Nat → Vec (s * N) K → Vec (s * N) K → Except E (Vec (s * N) K)) (hsolve : SolvesWithCg E space N table o nodes cgNorm solve)
    (search : Newton.LineSearch (s * N) K E)
    (hsearch : search = Newton.noLineSearch ∨ ∃ e fuel, search = Newton.backtracking e (fuel + 1))
    (maxIterations : Option Nat) (hmax : maxIterations ≠ some 0) (tolerance : K) (norm : Vec (s * N) K → K) (hnorm : norm 0 ≤ tolerance)
    (x₀ : Vec (s * N) K) :
    ∃ x f k, Newton.newtonLineSearch ⟨residual, solve, maxIterations, tolerance, search, norm⟩ 2 x₀ = some ⟨x, f, .ok k⟩ ∧
      (norm (residual x₀) ≤ tolerance → k = 0 ∧ x = x₀) ∧
      (tolerance < norm (residual x₀) → k = 1 ∧ f = 0 ∧ ∀ y : Vec (s * N) K, y = x ↔
        (∀ r : Fin (s * N), Constrained s nodes r → y r = x₀ r) ∧
        ∃ forces, Forces space N table o y forces ∧ ∀ r, r < s * N → ¬ Constrained s nodes r → forces[r]? = load[r]?) := by
  by_cases hn : tolerance < norm (residual x₀)
  swap
  · refine ⟨x₀, residual x₀, 0, ?_, fun _ => ⟨rfl, rfl⟩, fun h' => absurd h' hn⟩
    simp only [Newton.newtonLineSearch, Newton.loop, Newton.iteration, gt_iff_lt, if_neg hn]
  obtain ⟨ord, sortNodes, bufs, outs, elemMat, w, guess, hord, hsort, hguess, hem, hcg⟩ := hsolve 0 x₀ (residual x₀)
  obtain ⟨forces₀, rhs₁, hf₀, hr₀, hx₀⟩ := hres x₀
  have hP : Problem space N table rules (List.ofFn x₀) o nodes := { setting_at h.toSetting x₀ with definite := h.definite }
  obtain ⟨m, m', rhs', hm, hm', hrhs', hlen', ⟨z, hz, huniq⟩, hcgs⟩ := C96_solve (E := E) hP ord hord sortNodes hsort bufs outs elemMat hem
    (List.zipWith (· - ·) forces₀ load) (by
      obtain ⟨m, hm, -⟩ := assembled hP.toSetting ord hord sortNodes hsort bufs outs elemMat hem
      rw [List.length_zipWith, (forces_eq h.toSetting x₀ ord hord sortNodes hsort bufs outs elemMat hem m hm x₀ forces₀ hf₀).1, hload, min_self])
  have hF := forces_eq h.toSetting x₀ ord hord sortNodes hsort bufs outs elemMat hem m hm
  rw [hr₀] at hrhs'
  obtain rfl := Option.some.inj hrhs'
  obtain ⟨y, k, hrun, -, hy, -, hsol⟩ := hcgs cgNorm hpos hzero 0 (le_refl _) w guess hguess
  have hs0 := hsol rfl
  have hfn : List.ofFn (residual x₀) = rhs₁ := by rw [hx₀]; exact eq_ofFn rhs₁ hlen'
  have hd := hcg m m' y k hm hm' (by rw [hfn]; exact hrun)
  -- the solution of the Newton system
  have hloadr : ∀ r (hr : r < s * N), load[r]? = some (load.getD r 0) := by
    intro r hr
    rw [List.getD_eq_getElem?_getD, List.getElem?_eq_getElem (by omega)]
    rfl
  have hget : ∀ r, r < s * N → (List.zipWith (· - ·) forces₀ load).getD r 0 = (∑ c : Fin (s * N), entry m r c * x₀ c) - load.getD r 0 := by
    intro r hr
    rw [List.getD_eq_getElem?_getD, List.getElem?_zipWith, (hF x₀ forces₀ hf₀).2 r hr, hloadr r hr]
    rfl
  set D : Vec (s * N) K := fun j => y.getD j 0 with hD
  have hcon : ∀ r : Fin (s * N), Constrained s nodes r → D r = 0 := fun r hr => hs0.1 r r.2 hr
  have hfree : ∀ r, r < s * N → ¬ Constrained s nodes r → ∑ c : Fin (s * N), entry m r c * D c =
      (∑ c : Fin (s * N), entry m r c * x₀ c) - load.getD r 0 := by
    intro r hr hnc
    rw [← hget r hr]
    exact (Finset.sum_range _).symm.trans (hs0.2 r hr hnc)
  -- the residual at the new point
  have hres1 : residual (x₀ - D) = 0 := by
    obtain ⟨forces, rhs, hf, hr, hx⟩ := hres (x₀ - D)
    obtain ⟨hl, hfr⟩ := hF _ _ hf
    have hzl : (List.zipWith (· - ·) forces load).length = s * N := by rw [List.length_zipWith, hl, hload, min_self]
    obtain ⟨rhs₂, g1, g2, g3, g4⟩ := Assembly.C25_rhs_entries (List.zipWith (· - ·) forces load) nodes s (by
      obtain ⟨m₂, q1, -, q3, -, q5, q6, -⟩ := assembled hP.toSetting ord hord sortNodes hsort bufs outs elemMat hem
      intro r hr
      rw [hzl, ← q5, ← q3.1]
      exact q3.2 r r (q6 r hr))
    rw [hr] at g1
    obtain rfl := Option.some.inj g1
    rw [hx]
    funext r
    change rhs.getD r 0 = 0
    rw [List.getD_eq_getElem?_getD]
    by_cases hc : Constrained s nodes r
    · rw [g3 r (by rw [hzl]; exact r.2) hc]; rfl
    · rw [g4 r hc, List.getElem?_zipWith, hfr r r.2, hloadr r r.2]
      change (∑ c : Fin (s * N), entry m r c * (x₀ - D) c) - load.getD r 0 = 0
      simp only [Pi.sub_apply, mul_sub, Finset.sum_sub_distrib, hfree r r.2 hc]
      ring
  have hxe : (fun i => D i * -1 + x₀ i) = x₀ - D := by
    funext i
    simp only [Pi.sub_apply]
    ring
  have hstep : ∃ a, search 0 residual (residual x₀) x₀ (fun i => D i * -1) = some (.ok a, 0, x₀ - D) := by
    rcases hsearch with rfl | ⟨e, fuel, rfl⟩
    · refine ⟨1, ?_⟩
      simp only [Newton.noLineSearch, hxe, hres1]
    · refine ⟨1, ?_⟩
      have e1 : (fun j => (Newton.alphaAt 1 - Newton.alphaAt (1 - 1)) * (D j * -1) + x₀ j) = x₀ - D := by
        rw [← hxe]
        funext j
        simp [Newton.alphaAt]
      simp only [Newton.backtracking, Newton.backtrackingLoop, e1, hres1]
      rw [if_pos]
      · rfl
      · have : 0 ≤ residual x₀ ⬝ᵥ residual x₀ := Finset.sum_nonneg fun i _ => mul_self_nonneg _
        simp only [Newton.alphaAt, dotProduct_zero, mul_zero]
        refine mul_nonneg (by norm_num) (mul_nonneg (by norm_num) this)
  obtain ⟨a, hstep⟩ := hstep
  refine ⟨x₀ - D, 0, 1, ?_, fun h' => absurd hn (not_lt.2 h'), fun _ => ⟨rfl, rfl, fun v => ⟨?_, ?_⟩⟩⟩
  · simp only [Newton.newtonLineSearch, Newton.loop, Newton.iteration, gt_iff_lt, if_pos hn, if_neg hmax, hd, hstep, if_neg (not_lt.2 hnorm)]
  · rintro rfl
    refine ⟨fun r hr => by rw [Pi.sub_apply, hcon r hr, sub_zero], ?_⟩
    obtain ⟨forces, -, hf, -, -⟩ := hres (x₀ - D)
    refine ⟨forces, hf, fun r hr hnc => ?_⟩
    rw [(hF _ _ hf).2 r hr, hloadr r hr]
    simp only [Pi.sub_apply, mul_sub, Finset.sum_sub_distrib, hfree r hr hnc]
    congr 1
    ring
  · rintro ⟨hv, forces, hf, hfr⟩
    -- `x₀ - v` solves the same system
    have hyz := (huniq y hy).1 hs0
    have := (huniq (List.ofFn (x₀ - v)) (by simp)).1 ⟨fun r hr hc => by
        refine (ofFn_getD (x₀ - v) ⟨r, hr⟩).trans ?_
        rw [Pi.sub_apply, hv ⟨r, hr⟩ hc, sub_self], fun r hr hnc => by
        refine Eq.trans ?_ (hget r hr).symm
        rw [Finset.sum_range]
        simp only [ofFn_getD, Pi.sub_apply, mul_sub, Finset.sum_sub_distrib]
        have e := hfr r hr hnc
        rw [(hF _ _ hf).2 r hr, hloadr r hr] at e
        rw [Option.some.inj e]⟩
    rw [← hyz] at this
    have hDv : D = x₀ - v := by
      funext j
      rw [hD]
      change y.getD j 0 = _
      rw [← this, ofFn_getD]
    rw [hDv]
    abel

/-- The hypotheses are met: every linear problem has such residuals and such Jacobian solvers. -/
theorem C112_residual_and_solver_exist {E : Type} (h : Problem space N table rules u o nodes) (load : List K) (hload : load.length = s * N)
    (cgNorm : List K → K) (sortNodes : List (Nat × Nat) → List (Nat × Nat)) (hsort : SortsNodes sortNodes) :
    (∃ residual, ComputesResidual space N table o nodes load residual) ∧ ∃ solve, SolvesWithCg E space N table o nodes cgNorm solve := by
  constructor
  · have : ∀ x : Vec (s * N) K, ∃ R : Vec (s * N) K, ∃ forces rhs, Forces space N table o x forces ∧
        Assembly.dirichletRhs (List.zipWith (· - ·) forces load) nodes s = some rhs ∧ R = fun i : Fin (s * N) => rhs.getD i 0 := by
      intro x
      obtain ⟨elemVec, hev⟩ := vectors_exist h.toSetting x
      obtain ⟨elemMat, hem⟩ := matrices_exist h.toSetting x
      obtain ⟨m, h1, h2⟩ := C112_forces_are_matrix_times_values (setting_at h.toSetting x) id (fun l => .refl _) sortNodes hsort
        (fun _ => ⟨[], [], []⟩) (fun _ => 0) elemMat hem (List.ofFn x) (by simp) (fun _ => ⟨[], [], []⟩) (fun _ => 0) elemVec hev
      obtain ⟨m₂, q1, -, q3, -, q5, q6, -⟩ := assembled (setting_at h.toSetting x) id (fun l => .refl _) sortNodes hsort
        (fun _ => ⟨[], [], []⟩) (fun _ => 0) elemMat hem
      obtain ⟨rhs, g1, -⟩ := Assembly.C25_rhs_entries
        (List.zipWith (· - ·) ((List.range (s * N)).map fun r => ∑ c ∈ Finset.range (s * N), entry m r c * (List.ofFn x).getD c 0) load) nodes s (by
          intro r hr
          rw [List.length_zipWith, List.length_map, List.length_range, hload, min_self, ← q5, ← q3.1]
          exact q3.2 r r (q6 r hr))
      exact ⟨_, _, rhs, ⟨_, _, elemVec, hev, h2⟩, g1, rfl⟩
    choose R hR using this
    exact ⟨R, hR⟩
  · have : ∀ x f : Vec (s * N) K, ∃ R : Vec (s * N) K, ∃ elemMat : Nat → Except String (Mat K),
        (∀ e, e < space.length → ∃ buf', elementMatrix space o table (List.ofFn x) ⟨[], [], []⟩ 0 e = some (elemMat e, buf')) ∧
        ∀ m m' y k, Assembly.assemble id sortNodes ⟨s, N, space.map (·.2)⟩ elemMat = some (.ok m) → Assembly.dirichletCsr m nodes s = some m' →
          (CgBuffers.solveWithGuess (E := E) ⟨CgBuffers.csrOperator 0 1 (fullRows (s * N) m'), CgBuffers.identityOperator,
            CgBuffers.relativeResidual cgNorm 0, none, cgNorm⟩ (s * N + 1) CgBuffers.Workspace.default (List.ofFn f)
              (List.replicate (s * N) 0)).map Prod.fst = .done ⟨y, k, .ok ()⟩ →
          R = fun j : Fin (s * N) => y.getD j 0 := by
      intro x f
      obtain ⟨elemMat, hem⟩ := matrices_exist h.toSetting x
      obtain ⟨m, h1, -⟩ := assembled (setting_at h.toSetting x) id (fun l => .refl _) sortNodes hsort
        (fun _ => ⟨[], [], []⟩) (fun _ => 0) elemMat hem
      obtain ⟨m₁, m', h1', g1, -⟩ := C96_system_is_spd
        ({ setting_at h.toSetting x with definite := h.definite } : Problem space N table rules (List.ofFn x) o nodes) id (fun l => .refl _)
        sortNodes hsort (fun _ => ⟨[], [], []⟩) (fun _ => 0) elemMat hem
      rw [h1] at h1'
      obtain rfl : m = m₁ := by injection h1' with h1'; injection h1'
      by_cases hrun : ∃ y k, (CgBuffers.solveWithGuess (E := E) ⟨CgBuffers.csrOperator 0 1 (fullRows (s * N) m'), CgBuffers.identityOperator,
            CgBuffers.relativeResidual cgNorm 0, none, cgNorm⟩ (s * N + 1) CgBuffers.Workspace.default (List.ofFn f)
              (List.replicate (s * N) 0)).map Prod.fst = .done ⟨y, k, .ok ()⟩
      · obtain ⟨y, k, hyk⟩ := hrun
        refine ⟨fun j : Fin (s * N) => y.getD j 0, elemMat, hem, fun m₂ m₃ y' k' e1 e2 e3 => ?_⟩
        have e1' : Assembly.assemble id sortNodes (conn s space N) elemMat = some (.ok m₂) := e1
        rw [h1] at e1'
        obtain rfl : m = m₂ := by injection e1' with h1'; injection h1'
        rw [g1] at e2
        obtain rfl := Option.some.inj e2
        rw [hyk] at e3
        obtain rfl : y = y' := by injection e3 with e3; injection e3
        rfl
      · refine ⟨0, elemMat, hem, fun m₂ m₃ y' k' e1 e2 e3 => ?_⟩
        have e1' : Assembly.assemble id sortNodes (conn s space N) elemMat = some (.ok m₂) := e1
        rw [h1] at e1'
        obtain rfl : m = m₂ := by injection e1' with h1'; injection h1'
        rw [g1] at e2
        obtain rfl := Option.some.inj e2
        exact absurd ⟨y', k', e3⟩ hrun
    choose R eM h1 h2 using this
    exact ⟨fun _ x f => .ok (R x f), fun i x f => ⟨id, sortNodes, fun _ => ⟨[], [], []⟩, fun _ => 0, eM x f, CgBuffers.Workspace.default,
      List.replicate (s * N) 0, fun l => .refl _, hsort, by simp, h1 x f, fun m m' y k a b c => congrArg Except.ok (h2 x f m m' y k a b c)⟩⟩

theorem abs_norm : (∀ v : List ℝ, 0 ≤ (v.map fun a => |a|).sum) ∧ ∀ v : List ℝ, (v.map fun a => |a|).sum = 0 ↔ ∀ a ∈ v, a = 0 := by
  refine ⟨fun v => List.sum_nonneg (by simp), fun v => ⟨fun h0 a ha => ?_, fun h0 => List.sum_eq_zero fun x hx => ?_⟩⟩
  · exact abs_eq_zero.1 (List.all_zero_of_le_zero_le_of_sum_eq_zero (l := v.map fun a => |a|) (by simp) h0 (List.mem_map.2 ⟨a, ha, rfl⟩))
  · obtain ⟨a, ha, rfl⟩ := List.mem_map.1 hx
    rw [h0 a ha, abs_zero]

open Fenris.Element Fenris.PatchTest Fenris.Procedural Fenris.Surface Fenris.Canonical in
/-- Non-vacuity: the Poisson problem on the 2 × 2 mesh of the unit square, with prescribed values at three vertices and a load at all
vertices. Residuals and Jacobian solvers as above exist, and Newton's method with backtracking from the values `0, …, 8` succeeds. -/
example (sortNodes : List (Nat × Nat) → List (Nat × Nat)) (hsort : SortsNodes sortNodes) :
    ∃ space rule t residual solve, meshSpace .quad4 (unitSquareQuadMesh (K := ℝ) 2) = some space ∧
      stiffnessRule gaussExample .quad4 = some rule ∧ Uniform.fromQuadratureAndData rule () = some t ∧
      ComputesResidual space 9 t.table (laplace 2 ℝ) [0, 1, 2] (List.replicate 9 1) residual ∧
      SolvesWithCg Unit space 9 t.table (laplace 2 ℝ) [0, 1, 2] (fun v => (v.map fun a => |a|).sum) solve ∧
      ∃ x f k, Newton.newtonLineSearch ⟨residual, solve, some 1, 1 / 100, Newton.backtracking () 13, fun v => ∑ i, |v i|⟩ 2
        (fun i => (i : Nat)) = some ⟨x, f, .ok k⟩ ∧ k ≤ 1 := by
  obtain ⟨-, hlen, -⟩ := C17_quad_mesh_is_the_grid (1 : ℝ) 1 1 2 0 1 (by decide) (by decide) (by decide)
  have h9 : (unitSquareQuadMesh (K := ℝ) 2).vertices.length = 9 := hlen
  have hp := C96_quad_mesh gaussExample gaussExample_two rfl 1 one_pos 1 1 2 0 1 (by decide) (by decide) (by decide)
    (unitSquareQuadMesh (K := ℝ) 2) rfl [0, 1, 2] (by simp) (by rw [h9]; decide) (List.replicate 9 0) (by rw [h9]; rfl)
  rw [h9] at hp
  obtain ⟨space, rule, t, h1, h2, h3, hp⟩ := hp
  obtain ⟨⟨residual, hr⟩, ⟨solve, hsv⟩⟩ := C112_residual_and_solver_exist (E := Unit) hp (List.replicate 9 1) rfl
    (fun v => (v.map fun a => |a|).sum) sortNodes hsort
  refine ⟨space, rule, t, residual, solve, h1, h2, h3, hr, hsv, ?_⟩
  obtain ⟨x, f, k, e, k0, k1⟩ := C112_newton hp (List.replicate 9 1) rfl residual hr (fun v => (v.map fun a => |a|).sum) abs_norm.1 abs_norm.2
    solve hsv (Newton.backtracking () 13) (Or.inr ⟨(), 12, rfl⟩) (some 1) (by simp) (1 / 100) (fun v => ∑ i, |v i|) (by norm_num)
    (fun i => (i : Nat))
  refine ⟨x, f, k, e, ?_⟩
  rcases le_or_gt (∑ i, |residual (fun i => (i : Nat)) i|) (1 / 100) with hle | hgt
  · rw [(k0 hle).1]; exact Nat.zero_le _
  · rw [(k1 hgt).1]

end Fenris.NewtonLinear
