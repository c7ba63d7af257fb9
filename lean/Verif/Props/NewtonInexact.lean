import Verif.Props.NewtonLinear
/-! # C112: Newton's method on a linear problem, with a rough linear solver -/
set_option autoImplicit false
set_option linter.unusedSectionVars false

namespace Fenris.NewtonLinear
open Fenris.Local Fenris.Local.Spec Fenris.PatchTest.Spec Fenris.LinearProblem Fenris.LinearProblem.Spec Fenris.NewtonLinear.Spec Quadrature
open Fenris.Spec (matrixContribution vectorContribution entry SortsNodes Constrained Solves SolvesConstrained Stored)
open Cg (Vec)

variable {K : Type} [Field K] [LinearOrder K] [IsStrictOrderedRing K] {d s : Nat} {Param : Type} [Inhabited Param]
variable {space : Space d K} {N : Nat} {table : Table (Point d K) K Param} {rules : Nat → List (QPoint d K Param)} {u : List K}
  {o : Operator d s K Param} {nodes : List Nat}

attribute [local instance] zeroFill

private theorem spd_one' {n : Nat} : Cg.Spd (1 : Matrix (Fin n) (Fin n) K) := by
  refine ⟨Matrix.transpose_one, fun v hv => ?_⟩
  rw [Matrix.one_mulVec]
  obtain ⟨i, hi⟩ := Function.ne_iff.1 hv
  exact Finset.sum_pos' (fun j _ => mul_self_nonneg _) ⟨i, Finset.mem_univ _, mul_self_pos.2 hi⟩

/-- Conjugate gradients stay in a coordinate subspace that the matrix maps to itself. -/
private theorem iterates_zero {E : Type} {n : Nat} (A : Matrix (Fin n) (Fin n) K) (S : Fin n → Prop)
    (hA : ∀ v : Vec n K, (∀ i, S i → v i = 0) → ∀ i, S i → A.mulVec v i = 0) (b x₀ : Vec n K) (hb : ∀ i, S i → b i = 0)
    (hx : ∀ i, S i → x₀ i = 0) (k : Nat) (x r z p : Nat → Vec n K)
    (h : Cg.Spec.Iterates (E := E) (Cg.matrixOperator A) (Cg.matrixOperator 1) b x₀ k x r z p) :
    ∀ j, j ≤ k → (∀ i, S i → x j i = 0) ∧ (∀ i, S i → r j i = 0) ∧ ∀ i, S i → p j i = 0 := by
  have hz : ∀ j, j ≤ k → z j = r j := by
    intro j hj
    have := h.precondition j hj
    simp only [Cg.matrixOperator, Matrix.one_mulVec, Except.ok.injEq] at this
    exact this.symm
  intro j
  induction j with
  | zero =>
    intro _
    have hr0 : ∀ i, S i → r 0 i = 0 := by
      obtain ⟨y, hy, hr⟩ := h.residual
      simp only [Cg.matrixOperator, Except.ok.injEq] at hy
      intro i hi
      rw [hr, Pi.sub_apply, hb i hi, ← hy, hA x₀ hx i hi, sub_zero]
    refine ⟨fun i hi => by rw [h.start]; exact hx i hi, hr0, fun i hi => ?_⟩
    rw [h.direction, hz 0 (Nat.zero_le _)]
    exact hr0 i hi
  | succ j ih =>
    intro hj
    obtain ⟨h1, h2, h3⟩ := ih (by omega)
    obtain ⟨q, hq, hs⟩ := h.step j (by omega)
    simp only [Cg.matrixOperator, Except.ok.injEq] at hq
    have hr : ∀ i, S i → r (j + 1) i = 0 := by
      intro i hi
      rw [hs.r_eq, Pi.sub_apply, Pi.smul_apply, h2 i hi, ← hq, hA _ h3 i hi, smul_zero, sub_zero]
    refine ⟨fun i hi => ?_, hr, fun i hi => ?_⟩
    · rw [hs.x_eq, Pi.add_apply, Pi.smul_apply, h1 i hi, h3 i hi, smul_zero, add_zero]
    · rw [hs.p_eq, Pi.add_apply, Pi.smul_apply, hz (j + 1) hj, hr i hi, h3 i hi, smul_zero, add_zero]

/-- The conjugate gradient solver on a sparse matrix, with the tolerance that it was given, and without leaving such a subspace. -/
private theorem cg_rough {E : Type} {n : Nat} (m' : Assembly.Csr K) (hspd : Cg.Spd (Matrix.of fun i j : Fin n => entry m' i j)) (b : Fin n → K)
    (norm : List K → K) (hpos : ∀ v, 0 ≤ norm v) (hnorm : ∀ v, norm v = 0 ↔ ∀ a ∈ v, a = 0) (tol : K) (htol : 0 ≤ tol)
    (w : CgBuffers.Workspace K) (x₀ : Fin n → K) (S : Fin n → Prop)
    (hS : ∀ v : Vec n K, (∀ i, S i → v i = 0) → ∀ i, S i → (Matrix.of fun i j : Fin n => entry m' i j).mulVec v i = 0)
    (hb : ∀ i, S i → b i = 0) (hx₀ : ∀ i, S i → x₀ i = 0) :
    ∃ (x : Fin n → K) (k : Nat), (CgBuffers.solveWithGuess (E := E) ⟨CgBuffers.csrOperator 0 1 (fullRows n m'), CgBuffers.identityOperator,
        CgBuffers.relativeResidual norm tol, none, norm⟩ (n + 1) w (List.ofFn b) (List.ofFn x₀)).map Prod.fst =
        .done ⟨List.ofFn x, k, .ok ()⟩ ∧ (∀ i, S i → x i = 0) ∧
      norm (List.ofFn (b - (Matrix.of fun i j : Fin n => entry m' i j).mulVec x)) ≤ tol * norm (List.ofFn b) := by
  set A := (Matrix.of fun i j : Fin n => entry m' i j) with hA
  have hn : ∀ v : Cg.Vec n K, norm (List.ofFn v) = 0 ↔ v = 0 := by
    intro v
    rw [hnorm]
    constructor
    · intro hv
      funext i
      exact hv _ (List.mem_ofFn.2 ⟨i, rfl⟩)
    · rintro rfl a ha
      obtain ⟨i, rfl⟩ := List.mem_ofFn.1 ha
      rfl
  obtain ⟨x, k, hx, hk⟩ := Cg.C31_spd_converges_within_dimension (E := E) A 1 hspd spd_one' (fun v => norm (List.ofFn v)) hn (fun v => hpos _)
    tol htol none (by simp) b x₀
  have hrun : (CgBuffers.solveWithGuess (E := E) ⟨CgBuffers.csrOperator 0 1 (fullRows n m'), CgBuffers.identityOperator,
        CgBuffers.relativeResidual norm tol, none, norm⟩ (n + 1) w (List.ofFn b) (List.ofFn x₀)).map Prod.fst =
        .done ⟨List.ofFn x, k, .ok ()⟩ := by
    have hsame : CgBuffers.Spec.SameSolver n (E := E) ⟨CgBuffers.csrOperator 0 1 (fullRows n m'),
          CgBuffers.identityOperator, CgBuffers.relativeResidual norm tol, none, norm⟩
        ⟨Cg.matrixOperator A, Cg.matrixOperator 1, Cg.relativeResidual (fun v => norm (List.ofFn v)) tol, none,
          fun v => norm (List.ofFn v)⟩ := by
      refine ⟨(CgBuffers.C95_shipped_operators A).2.1, ?_, fun _ _ _ _ _ => rfl, rfl, fun _ => rfl⟩
      have hid : (Cg.matrixOperator 1 : Nat → Cg.Vec n K → Except E (Cg.Vec n K)) = Cg.identityOperator := by
        funext _ v
        simp [Cg.matrixOperator, Cg.identityOperator]
      rw [hid]
      exact (CgBuffers.C95_shipped_operators A).2.2
    exact (CgBuffers.C95_refines hsame (n + 1) w b x₀).1 _ hx
  refine ⟨x, k, hrun, ?_⟩
  rcases Cg.C30_ok_means_criterion_held _ _ _ _ _ _ hx with ⟨h0, rfl, -⟩ | ⟨xs, r, z, p, hit, rfl, hconv⟩
  · refine ⟨fun _ _ => rfl, ?_⟩
    rw [Matrix.mulVec_zero, sub_zero]
    change norm (List.ofFn b) = 0 at h0
    rw [h0, mul_zero]
  · refine ⟨(iterates_zero A S hS b x₀ hb hx₀ k xs r z p hit k (le_refl _)).1, ?_⟩
    simp only [Cg.relativeResidual, Except.ok.injEq, decide_eq_true_eq] at hconv
    rw [← Cg.C31_maintained_residual_is_true_residual A _ b x₀ k xs r z p hit k (le_refl _)]
    exact hconv

/-- One step: the direction respects the prescribed values, and the residual after the full step is at most `tol` times the residual. -/
private theorem one_step {E : Type} (h : Problem space N table rules u o nodes) (load : List K) (hload : load.length = s * N)
    (residual : Vec (s * N) K → Vec (s * N) K) (hres : ComputesResidual space N table o nodes load residual)
    (norm : List K → K) (hpos : ∀ v, 0 ≤ norm v) (hzero : ∀ v, norm v = 0 ↔ ∀ a ∈ v, a = 0) (tol : K) (htol : 0 ≤ tol)
    (solve : Nat → Vec (s * N) K → Vec (s * N) K → Except E (Vec (s * N) K)) (hsolve : SolvesRoughly E space N table o nodes norm tol solve)
    (it : Nat) (x₀ : Vec (s * N) K) :
    ∃ D, solve it x₀ (residual x₀) = .ok D ∧ (∀ r : Fin (s * N), Constrained s nodes r → D r = 0) ∧
      norm (List.ofFn (residual (x₀ - D))) ≤ tol * norm (List.ofFn (residual x₀)) := by
  classical
  obtain ⟨ord, sortNodes, bufs, outs, elemMat, w, hord, hsort, hem, hcg⟩ := hsolve it x₀ (residual x₀)
  have hP : Problem space N table rules (List.ofFn x₀) o nodes := { setting_at h.toSetting x₀ with definite := h.definite }
  obtain ⟨m, hm, h2, h3, h4, h5, h6, -, -⟩ := assembled hP.toSetting ord hord sortNodes hsort bufs outs elemMat hem
  obtain ⟨m₁, m', h1', hm', hspd⟩ := C96_system_is_spd hP ord hord sortNodes hsort bufs outs elemMat hem
  rw [hm] at h1'
  obtain rfl : m = m₁ := by injection h1' with h1'; injection h1'
  have hin : ∀ r, Constrained s nodes r → r < s * N := fun r hr => by
    rw [← h5, ← h3.1]
    exact h3.2 r r (h6 r hr)
  obtain ⟨m₂, t, g1, -, -, -, g3⟩ := Assembly.C25_csr_entries m nodes s h2 h3 h4 (fun r hr => by rw [h5]; exact hin r hr)
  rw [hm'] at g1
  obtain rfl := Option.some.inj g1
  have hF := forces_eq h.toSetting x₀ ord hord sortNodes hsort bufs outs elemMat hem m hm
  have hloadr : ∀ r (hr : r < s * N), load[r]? = some (load.getD r 0) := by
    intro r hr
    rw [List.getD_eq_getElem?_getD, List.getElem?_eq_getElem (by omega)]
    rfl
  -- the residual in terms of the matrix
  have hR : ∀ (x : Vec (s * N) K) (r : Fin (s * N)), residual x r = if Constrained s nodes r then 0 else
      (∑ c : Fin (s * N), entry m r c * x c) - load.getD r 0 := by
    intro x r
    obtain ⟨forces, rhs, hf, hr, hx⟩ := hres x
    obtain ⟨hl, hfr⟩ := hF _ _ hf
    have hzl : (List.zipWith (· - ·) forces load).length = s * N := by rw [List.length_zipWith, hl, hload, min_self]
    obtain ⟨rhs₂, q1, q2, q3, q4⟩ := Assembly.C25_rhs_entries (List.zipWith (· - ·) forces load) nodes s (fun r hr => by rw [hzl]; exact hin r hr)
    rw [hr] at q1
    obtain rfl := Option.some.inj q1
    rw [hx]
    change rhs.getD r 0 = _
    rw [List.getD_eq_getElem?_getD]
    split_ifs with hc
    · rw [q3 r (by rw [hzl]; exact r.2) hc]; rfl
    · rw [q4 r hc, List.getElem?_zipWith, hfr r r.2, hloadr r r.2]
      rfl
  -- the matrix after the boundary conditions, on vectors that vanish at the prescribed nodes
  have hA : ∀ v : Vec (s * N) K, (∀ r : Fin (s * N), Constrained s nodes r → v r = 0) → ∀ r : Fin (s * N),
      (Matrix.of fun i j : Fin (s * N) => entry m' i j).mulVec v r = if Constrained s nodes r then 0 else ∑ c : Fin (s * N), entry m r c * v c := by
    intro v hv r
    change ∑ c : Fin (s * N), entry m' r c * v c = _
    split_ifs with hc
    · refine Finset.sum_eq_zero fun c _ => ?_
      by_cases hcc : Constrained s nodes c
      · rw [hv c hcc, mul_zero]
      · rw [g3, if_pos (Or.inl hc), if_neg, zero_mul]
        rintro ⟨hrc, -⟩
        exact hcc (hrc ▸ hc)
    · refine Finset.sum_congr rfl fun c _ => ?_
      by_cases hcc : Constrained s nodes c
      · rw [hv c hcc, mul_zero, mul_zero]
      · rw [g3, if_neg (by tauto)]
  obtain ⟨D, k, hrun, hD, hbound⟩ := cg_rough (E := E) m' hspd (residual x₀) norm hpos hzero tol htol w 0 (fun i => Constrained s nodes i)
    (fun v hv i hi => by rw [hA v hv i, if_pos hi]) (fun i hi => by rw [hR, if_pos hi]) (fun _ _ => rfl)
  have h0 : List.ofFn (0 : Vec (s * N) K) = List.replicate (s * N) 0 := List.ofFn_const _ _
  rw [h0] at hrun
  have hd := hcg m m' _ k hm hm' hrun
  have hDe : (fun j : Fin (s * N) => (List.ofFn D).getD j 0) = D := funext fun j => ofFn_getD D j
  rw [hDe] at hd
  refine ⟨D, hd, hD, ?_⟩
  have he : residual (x₀ - D) = residual x₀ - (Matrix.of fun i j : Fin (s * N) => entry m' i j).mulVec D := by
    funext r
    rw [Pi.sub_apply, hR, hR, hA D hD r]
    split_ifs
    · rw [sub_zero]
    · simp only [Pi.sub_apply, mul_sub, Finset.sum_sub_distrib]
      ring
  rw [he]
  exact hbound

/-- **C112.** With a conjugate gradient solver of relative tolerance `tol` that starts with zero, every step of Newton's method makes the
residual smaller by the factor `tol` at least and keeps the prescribed values. So `n` steps suffice if `tol ^ n` times the residual of the
start is within the tolerance of the method: it returns `Ok(k)` with `k ≤ n`, whatever the start and the limit (if it is not below `n`).
The same with backtracking, which takes full steps only, if the norm is the Euclidean one and `tol ^ 2 ≤ 1 - 1 / 10000`. -/
theorem C112_rough_solver {E : Type} (h : Problem space N table rules u o nodes) (load : List K) (hload : load.length = s * N)
    (residual : Vec (s * N) K → Vec (s * N) K) (hres : ComputesResidual space N table o nodes load residual)
    (norm : List K → K) (hpos : ∀ v, 0 ≤ norm v) (hzero : ∀ v, norm v = 0 ↔ ∀ a ∈ v, a = 0) (tol : K) (htol : 0 ≤ tol)
    (solve : Nat → Vec (s * N) K → Vec (s * N) K → Except E (Vec (s * N) K)) (hsolve : SolvesRoughly E space N table o nodes norm tol solve)
    (search : Newton.LineSearch (s * N) K E)
    (hsearch : search = Newton.noLineSearch ∨ ∃ e fuel, search = Newton.backtracking e (fuel + 1) ∧
      (∀ v : Vec (s * N) K, norm (List.ofFn v) ^ 2 = v ⬝ᵥ v) ∧ tol ^ 2 ≤ 1 - 1 / 10000)
    (x₀ : Vec (s * N) K) (tolerance : K) (n : Nat) (hn : tol ^ n * norm (List.ofFn (residual x₀)) ≤ tolerance)
    (maxIterations : Option Nat) (hmax : ∀ l, maxIterations = some l → n ≤ l) :
    ∃ x k, Newton.newtonLineSearch ⟨residual, solve, maxIterations, tolerance, search, fun v => norm (List.ofFn v)⟩ (n + 1) x₀ =
        some ⟨x, residual x, .ok k⟩ ∧ k ≤ n ∧
      norm (List.ofFn (residual x)) ≤ tolerance ∧ norm (List.ofFn (residual x)) ≤ tol ^ k * norm (List.ofFn (residual x₀)) ∧
      ∀ r : Fin (s * N), Constrained s nodes r → x r = x₀ r := by
  set c : Newton.Problem (s * N) K E := ⟨residual, solve, maxIterations, tolerance, search, fun v => norm (List.ofFn v)⟩ with hc
  have key : ∀ n iter (x₀ : Vec (s * N) K), tol ^ n * norm (List.ofFn (residual x₀)) ≤ tolerance →
      (∀ l, maxIterations = some l → iter + n ≤ l) → ∃ x k, Newton.loop c (n + 1) x₀ (residual x₀) iter = some ⟨x, residual x, .ok (iter + k)⟩ ∧
        k ≤ n ∧ norm (List.ofFn (residual x)) ≤ tolerance ∧ norm (List.ofFn (residual x)) ≤ tol ^ k * norm (List.ofFn (residual x₀)) ∧
        ∀ r : Fin (s * N), Constrained s nodes r → x r = x₀ r := by
    intro n
    induction n with
    | zero =>
      intro iter x₀ h0 _
      rw [pow_zero, one_mul] at h0
      refine ⟨x₀, 0, ?_, le_refl _, h0, by simp, fun _ _ => rfl⟩
      simp only [Newton.loop, Newton.iteration, hc, gt_iff_lt, if_neg (not_lt.2 h0), Nat.add_zero]
    | succ n ih =>
      intro iter x₀ h0 hl
      by_cases hsmall : norm (List.ofFn (residual x₀)) ≤ tolerance
      · refine ⟨x₀, 0, ?_, Nat.zero_le _, hsmall, by simp, fun _ _ => rfl⟩
        rw [Newton.loop]
        simp only [Newton.iteration, hc, gt_iff_lt, if_neg (not_lt.2 hsmall), Nat.add_zero]
      · obtain ⟨D, hD, hDc, hDn⟩ := one_step h load hload residual hres norm hpos hzero tol htol solve hsolve iter x₀
        obtain ⟨x, k, e1, e2, e3, e4, e5⟩ := ih (iter + 1) (x₀ - D)
          (le_trans (by rw [pow_succ, mul_assoc]; exact mul_le_mul_of_nonneg_left hDn (pow_nonneg htol _)) h0)
          (fun l hl' => by have := hl l hl'; omega)
        refine ⟨x, k + 1, ?_, by omega, e3, ?_, fun r hr => ?_⟩
        · have hxe : (fun i => D i * -1 + x₀ i) = x₀ - D := by
            funext i
            simp only [Pi.sub_apply]
            ring
          have hm : maxIterations ≠ some iter := fun hm => by have := hl _ hm; omega
          have hstep : ∃ a, search iter residual (residual x₀) x₀ (fun i => D i * -1) = some (.ok a, residual (x₀ - D), x₀ - D) := by
            rcases hsearch with hs | ⟨e, fuel, hs, hsq, htol2⟩
            · refine ⟨1, ?_⟩
              simp only [hs, Newton.noLineSearch, hxe]
            · refine ⟨1, ?_⟩
              have e1 : (fun j => (Newton.alphaAt 1 - Newton.alphaAt (1 - 1)) * (D j * -1) + x₀ j) = x₀ - D := by
                rw [← hxe]
                funext j
                simp [Newton.alphaAt]
              simp only [hs, Newton.backtracking, Newton.backtrackingLoop, e1]
              rw [if_pos]
              · rfl
              · simp only [Newton.alphaAt]
                rw [← hsq, ← hsq]
                have h1 := pow_le_pow_left₀ (hpos _) hDn 2
                rw [mul_pow] at h1
                have h2 := mul_le_mul_of_nonneg_right htol2 (sq_nonneg (norm (List.ofFn (residual x₀))))
                linarith
          obtain ⟨a, hstep⟩ := hstep
          have hi : Newton.iteration c x₀ (residual x₀) iter = some (.inr (x₀ - D, residual (x₀ - D))) := by
            simp only [Newton.iteration, hc, gt_iff_lt, if_pos (not_le.1 hsmall), if_neg hm, hD, hstep]
          rw [Newton.loop, hi]
          simp only [e1, Nat.add_assoc, Nat.add_comm 1 k]
        · refine le_trans e4 ?_
          rw [pow_succ, mul_assoc]
          exact mul_le_mul_of_nonneg_left hDn (pow_nonneg htol _)
        · rw [e5 r hr, Pi.sub_apply, hDc r hr, sub_zero]
  obtain ⟨x, k, e1, e2⟩ := key n 0 x₀ hn (fun l hl => by have := hmax l hl; omega)
  rw [Nat.zero_add] at e1
  exact ⟨x, k, e1, e2⟩

/-- **C112.** If the tolerance of the linear solver is below one and the tolerance of the method is positive, it always returns `Ok`. -/
theorem C112_rough_solver_converges [Archimedean K] {E : Type} (h : Problem space N table rules u o nodes) (load : List K)
    (hload : load.length = s * N)
    (residual : Vec (s * N) K → Vec (s * N) K) (hres : ComputesResidual space N table o nodes load residual)
    (norm : List K → K) (hpos : ∀ v, 0 ≤ norm v) (hzero : ∀ v, norm v = 0 ↔ ∀ a ∈ v, a = 0) (tol : K) (htol : 0 ≤ tol) (htol1 : tol < 1)
    (solve : Nat → Vec (s * N) K → Vec (s * N) K → Except E (Vec (s * N) K)) (hsolve : SolvesRoughly E space N table o nodes norm tol solve)
    (x₀ : Vec (s * N) K) (tolerance : K) (htolerance : 0 < tolerance) :
    ∃ fuel x k, Newton.newton residual solve none tolerance (fun v => norm (List.ofFn v)) fuel x₀ = some ⟨x, residual x, .ok k⟩ ∧
      norm (List.ofFn (residual x)) ≤ tolerance ∧ ∀ r : Fin (s * N), Constrained s nodes r → x r = x₀ r := by
  obtain ⟨n, hn⟩ : ∃ n : Nat, tol ^ n * norm (List.ofFn (residual x₀)) ≤ tolerance := by
    rcases (hpos (List.ofFn (residual x₀))).eq_or_lt with h0 | h0
    · exact ⟨0, by rw [← h0, mul_zero]; exact htolerance.le⟩
    · obtain ⟨n, hn⟩ := exists_pow_lt_of_lt_one (div_pos htolerance h0) htol1
      exact ⟨n, ((lt_div_iff₀ h0).1 hn).le⟩
  obtain ⟨x, k, h1, -, h2, -, h3⟩ := C112_rough_solver h load hload residual hres norm hpos hzero tol htol solve hsolve
    Newton.noLineSearch (Or.inl rfl) x₀ tolerance n hn none (by simp)
  exact ⟨n + 1, x, k, h1, h2, h3⟩

/-- The hypothesis is met: every linear problem has such Jacobian solvers. -/
theorem C112_rough_solver_exists {E : Type} (h : Problem space N table rules u o nodes) (cgNorm : List K → K) (tol : K)
    (sortNodes : List (Nat × Nat) → List (Nat × Nat)) (hsort : SortsNodes sortNodes) :
    ∃ solve, SolvesRoughly E space N table o nodes cgNorm tol solve := by
  have : ∀ x f : Vec (s * N) K, ∃ R : Vec (s * N) K, ∃ elemMat : Nat → Except String (Mat K),
      (∀ e, e < space.length → ∃ buf', elementMatrix space o table (List.ofFn x) ⟨[], [], []⟩ 0 e = some (elemMat e, buf')) ∧
      ∀ m m' y k, Assembly.assemble id sortNodes ⟨s, N, space.map (·.2)⟩ elemMat = some (.ok m) → Assembly.dirichletCsr m nodes s = some m' →
        (CgBuffers.solveWithGuess (E := E) ⟨CgBuffers.csrOperator 0 1 (fullRows (s * N) m'), CgBuffers.identityOperator,
          CgBuffers.relativeResidual cgNorm tol, none, cgNorm⟩ (s * N + 1) CgBuffers.Workspace.default (List.ofFn f)
            (List.replicate (s * N) 0)).map Prod.fst = .done ⟨y, k, .ok ()⟩ →
        R = fun j : Fin (s * N) => y.getD j 0 := by
    intro x f
    obtain ⟨elemMat, hem⟩ := matrices_exist h.toSetting x
    obtain ⟨m, h1, -⟩ := assembled (setting_at h.toSetting x) id (fun l => .refl _) sortNodes hsort
      (fun _ => ⟨[], [], []⟩) (fun _ => 0) elemMat hem
    obtain ⟨m₁, m', h1', g1, -⟩ := C96_system_is_spd
      ({ setting_at h.toSetting x with definite := h.definite } : Problem space N table rules (List.ofFn x) o nodes) id (fun l => .refl _)
      sortNodes hsort (fun _ => ⟨[], [], []⟩) (fun _ => 0) elemMat hem
    rw [h1] at h1'
    obtain rfl : m = m₁ := by injection h1' with h1'; injection h1'
    by_cases hrun : ∃ y k, (CgBuffers.solveWithGuess (E := E) ⟨CgBuffers.csrOperator 0 1 (fullRows (s * N) m'), CgBuffers.identityOperator,
          CgBuffers.relativeResidual cgNorm tol, none, cgNorm⟩ (s * N + 1) CgBuffers.Workspace.default (List.ofFn f)
            (List.replicate (s * N) 0)).map Prod.fst = .done ⟨y, k, .ok ()⟩
    · obtain ⟨y, k, hyk⟩ := hrun
      refine ⟨fun j : Fin (s * N) => y.getD j 0, elemMat, hem, fun m₂ m₃ y' k' e1 e2 e3 => ?_⟩
      have e1' : Assembly.assemble id sortNodes (conn s space N) elemMat = some (.ok m₂) := e1
      rw [h1] at e1'
      obtain rfl : m = m₂ := by injection e1' with h1'; injection h1'
      rw [g1] at e2
      obtain rfl := Option.some.inj e2
      rw [hyk] at e3
      obtain rfl : y = y' := by injection e3 with e3; injection e3
      rfl
    · refine ⟨0, elemMat, hem, fun m₂ m₃ y' k' e1 e2 e3 => ?_⟩
      have e1' : Assembly.assemble id sortNodes (conn s space N) elemMat = some (.ok m₂) := e1
      rw [h1] at e1'
      obtain rfl : m = m₂ := by injection e1' with h1'; injection h1'
      rw [g1] at e2
      obtain rfl := Option.some.inj e2
      exact absurd ⟨y', k', e3⟩ hrun
  choose R eM h1 h2 using this
  exact ⟨fun _ x f => .ok (R x f), fun i x f => ⟨id, sortNodes, fun _ => ⟨[], [], []⟩, fun _ => 0, eM x f, CgBuffers.Workspace.default,
    fun l => .refl _, hsort, h1 x f, fun m m' y k a b c => congrArg Except.ok (h2 x f m m' y k a b c)⟩⟩

open Fenris.Element Fenris.PatchTest Fenris.Procedural Fenris.Surface Fenris.Canonical in
/-- Non-vacuity: the Poisson problem on the 2 × 2 mesh of the unit square as above, solved with a linear solver that only halves residuals. -/
example (sortNodes : List (Nat × Nat) → List (Nat × Nat)) (hsort : SortsNodes sortNodes) :
    ∃ space rule t residual solve, meshSpace .quad4 (unitSquareQuadMesh (K := ℝ) 2) = some space ∧
      stiffnessRule gaussExample .quad4 = some rule ∧ Uniform.fromQuadratureAndData rule () = some t ∧
      ComputesResidual space 9 t.table (laplace 2 ℝ) [0, 1, 2] (List.replicate 9 1) residual ∧
      SolvesRoughly Unit space 9 t.table (laplace 2 ℝ) [0, 1, 2] (fun v => (v.map fun a => |a|).sum) (1 / 2) solve ∧
      ∃ fuel x k, Newton.newton residual solve none (1 / 1000) (fun v => ((List.ofFn v).map fun a => |a|).sum) fuel (fun i => (i : Nat)) =
        some ⟨x, residual x, .ok k⟩ := by
  obtain ⟨-, hlen, -⟩ := C17_quad_mesh_is_the_grid (1 : ℝ) 1 1 2 0 1 (by decide) (by decide) (by decide)
  have h9 : (unitSquareQuadMesh (K := ℝ) 2).vertices.length = 9 := hlen
  have hp := C96_quad_mesh gaussExample gaussExample_two rfl 1 one_pos 1 1 2 0 1 (by decide) (by decide) (by decide)
    (unitSquareQuadMesh (K := ℝ) 2) rfl [0, 1, 2] (by simp) (by rw [h9]; decide) (List.replicate 9 0) (by rw [h9]; rfl)
  rw [h9] at hp
  obtain ⟨space, rule, t, h1, h2, h3, hp⟩ := hp
  obtain ⟨⟨residual, hr⟩, -⟩ := C112_residual_and_solver_exist (E := Unit) hp (List.replicate 9 1) rfl
    (fun v => (v.map fun a => |a|).sum) sortNodes hsort
  obtain ⟨solve, hsv⟩ := C112_rough_solver_exists (E := Unit) hp (fun v => (v.map fun a => |a|).sum) (1 / 2) sortNodes hsort
  obtain ⟨fuel, x, k, e, -⟩ := C112_rough_solver_converges hp (List.replicate 9 1) rfl residual hr (fun v => (v.map fun a => |a|).sum)
    abs_norm.1 abs_norm.2 (1 / 2) (by norm_num) (by norm_num) solve hsv (fun i => (i : Nat)) (1 / 1000) (by norm_num)
  exact ⟨space, rule, t, residual, solve, h1, h2, h3, hr, hsv, fuel, x, k, e⟩

/-- The Euclidean norm and the tolerance one half meet the hypotheses of the theorem with backtracking. -/
example (n : Nat) : (∀ v : List ℝ, 0 ≤ √(v.map fun a => a ^ 2).sum) ∧ (∀ v : List ℝ, √(v.map fun a => a ^ 2).sum = 0 ↔ ∀ a ∈ v, a = 0) ∧
    (∀ v : Vec n ℝ, √((List.ofFn v).map fun a => a ^ 2).sum ^ 2 = v ⬝ᵥ v) ∧ ((1 / 2 : ℝ)) ^ 2 ≤ 1 - 1 / 10000 := by
  have hs : ∀ v : List ℝ, 0 ≤ (v.map fun a => a ^ 2).sum := fun v => List.sum_nonneg (by
    intro x hx
    obtain ⟨a, -, rfl⟩ := List.mem_map.1 hx
    exact sq_nonneg a)
  refine ⟨fun v => Real.sqrt_nonneg _, fun v => ?_, fun v => ?_, by norm_num⟩
  · rw [Real.sqrt_eq_zero (hs v)]
    refine ⟨fun h0 a ha => ?_, fun h0 => List.sum_eq_zero fun x hx => ?_⟩
    · have := List.all_zero_of_le_zero_le_of_sum_eq_zero (l := v.map fun a => a ^ 2) (by
        intro x hx
        obtain ⟨a, -, rfl⟩ := List.mem_map.1 hx
        exact sq_nonneg a) h0 (List.mem_map.2 ⟨a, ha, rfl⟩)
      exact pow_eq_zero_iff (two_ne_zero) |>.1 this
    · obtain ⟨a, ha, rfl⟩ := List.mem_map.1 hx
      rw [h0 a ha]; norm_num
  · rw [Real.sq_sqrt (hs _), List.map_ofFn, List.sum_ofFn]
    exact Finset.sum_congr rfl fun i _ => sq _

end Fenris.NewtonLinear
