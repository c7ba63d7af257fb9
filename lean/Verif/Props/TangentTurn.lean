import Verif.Props.Objectivity
/-! # C106: moving a body rigidly turns its tangent matrix -/
set_option autoImplicit false
set_option linter.unusedSectionVars false

namespace Fenris.Objectivity
open Fenris.Element Fenris.Local Fenris.Local.Spec Fenris.PatchTest Fenris.PatchTest.Spec Fenris.LinearProblem Fenris.LinearProblem.Spec Quadrature
open Fenris.Surface Fenris.Surface.Spec Fenris.Elasticity Fenris.Elasticity.Spec Fenris.Solid Fenris.Mass Fenris.Mass.Spec Fenris.Equilibrium
open Fenris.Equilibrium.Spec Fenris.Objectivity.Spec
open Fenris.Spec (matrixContribution entry SortsNodes)

attribute [local instance] zeroFill

/-! ## The block of a pair of nodes -/

section generic
variable {K : Type} [Field K] [LinearOrder K] [IsStrictOrderedRing K] {d s : Nat} {Param : Type} [Inhabited Param]

private theorem index_eq {s a n : Nat} (i j : Fin s) : s * a + i = s * n + j ↔ a = n ∧ i = j := by
  constructor
  · intro h
    have hs : 0 < s := i.pos
    have h1 : a = n := by
      have := congrArg (· / s) h
      simpa [Nat.mul_add_div hs, Nat.div_eq_of_lt i.2, Nat.div_eq_of_lt j.2] using this
    subst h1
    exact ⟨rfl, Fin.ext (Nat.add_left_cancel h)⟩
  · rintro ⟨rfl, rfl⟩
    rfl

private theorem contribution_block (nodes : List Nat) (A : Mat K) (n n' : Nat) (i j : Fin s) :
    matrixContribution s nodes A (s * n + i) (s * n' + j) =
      ∑ I : Fin nodes.length, ∑ J : Fin nodes.length, if nodes[I] = n ∧ nodes[J] = n' then A (s * I + i) (s * J + j) else 0 := by
  unfold matrixContribution
  refine Finset.sum_congr rfl fun I _ => ?_
  rw [Finset.sum_comm]
  refine Finset.sum_congr rfl fun J _ => ?_
  rw [Finset.sum_eq_single i, Finset.sum_eq_single j]
  · simp only [index_eq, and_true]
  · intro l _ hl
    rw [if_neg]
    simp only [index_eq]
    exact fun h => hl h.2.2
  · exact fun h => absurd (Finset.mem_univ _) h
  · intro l _ hl
    refine Finset.sum_eq_zero fun l' _ => if_neg ?_
    simp only [index_eq]
    exact fun h => hl h.1.2
  · exact fun h => absurd (Finset.mem_univ _) h

/-- The block of the assembled matrix that belongs to a pair of nodes. -/
theorem node_block {space : Space d K} {N : Nat} {table : Table (Point d K) K Param} {rules : Nat → List (QPoint d K Param)} {u : List K}
    (hs : 0 < s) (h : Discretisation space N table rules u s) (hnd : ∀ en ∈ space, en.2.Nodup) (o : Operator d s K Param) (hsym : SymmetryLaw o)
    (ord : List Nat → List Nat) (hord : ∀ l, (ord l).Perm l) (sortNodes : List (Nat × Nat) → List (Nat × Nat)) (hsort : SortsNodes sortNodes)
    (bufs : Nat → Buffer (Point d K) K Param) (outs : Nat → Mat K) (elemMat : Nat → Except String (Mat K))
    (hem : ∀ e, e < space.length → ∃ buf', elementMatrix space o table u (bufs e) (outs e) e = some (elemMat e, buf')) (m : Assembly.Csr K)
    (hm : Assembly.assemble ord sortNodes (conn s space N) elemMat = some (.ok m)) (n n' : Nat) (i j : Fin s) :
    entry m (s * n + i) (s * n' + j) = ∑ e : Fin space.length, quadSum (space[e]).1 (rules e) fun p param =>
      ∑ I : Fin (space[e]).2.length, ∑ J : Fin (space[e]).2.length, if (space[e]).2[I] = n ∧ (space[e]).2[J] = n' then
        o.contract (gradU s ((space[e]).1.jacobian p) ((space[e]).1.gradients p) (localPart s u (space[e]).2))
          (physGrad ((space[e]).1.jacobian p) (((space[e]).1.gradients p)[(I : Nat)]?.getD 0))
          (physGrad ((space[e]).1.jacobian p) (((space[e]).1.gradients p)[(J : Nat)]?.getD 0)) param i j else 0 := by
  have hex : ∀ e, ∃ A : Mat K, ∀ (el : VolElement d K) (nodes : List Nat), space[e]? = some (el, nodes) →
      ∀ (I J : Nat) (i j : Fin s), I < nodes.length → J < nodes.length →
        A (s * I + i) (s * J + j) = quadSum el (rules e) (fun p param =>
          o.contract (gradU s (el.jacobian p) (el.gradients p) (localPart s u nodes))
            (physGrad (el.jacobian p) ((el.gradients p)[I]?.getD 0))
            (physGrad (el.jacobian p) ((el.gradients p)[J]?.getD 0)) param i j) := by
    intro e
    by_cases he : e < space.length
    · obtain ⟨A, -, -, hA⟩ := C69_element_matrix space N table rules u h o hsym (bufs e) (outs e) e (space[e]).1 (space[e]).2 (List.getElem?_eq_getElem he)
      refine ⟨A, fun el nodes hel => ?_⟩
      have := Option.some.inj ((List.getElem?_eq_getElem he).symm.trans hel)
      rw [this] at hA
      exact hA
    · refine ⟨fun _ _ => 0, fun el nodes hel => ?_⟩
      rw [List.getElem?_eq_none (not_lt.1 he)] at hel
      cases hel
  choose stiff hstiff using hex
  obtain ⟨m', hm', hentry⟩ := C69_global_matrix space N table rules u hs h hnd o hsym ord hord sortNodes hsort bufs outs elemMat hem stiff hstiff
  obtain rfl : m' = m := by
    have := hm'.symm.trans hm
    injection this with this
    injection this
  rw [hentry]
  refine Finset.sum_congr rfl fun e _ => ?_
  rw [contribution_block, ← quadSum_finsetSum]
  refine Finset.sum_congr rfl fun I _ => ?_
  rw [← quadSum_finsetSum]
  refine Finset.sum_congr rfl fun J _ => ?_
  split_ifs
  · exact hstiff e _ _ (List.getElem?_eq_getElem e.2) I J i j I.2 J.2
  · simp [quadSum]

/-- If at every quadrature point the contributions of the pairs of nodes to the two matrices are turned by `R`, then so are the matrices. -/
theorem matrix_turned_of_points {space space' : Space d K} {N : Nat} {table table' : Table (Point d K) K Param} {rules : Nat → List (QPoint d K Param)}
    {u u' : List K} (hs : 0 < s) (h : Discretisation space N table rules u s) (h' : Discretisation space' N table' rules u' s)
    (hnd : ∀ en ∈ space, en.2.Nodup) (o : Operator d s K Param) (hsym : SymmetryLaw o)
    (R : Matrix (Fin s) (Fin s) K) (hlen : space'.length = space.length)
    (hpoint : ∀ (e : Nat) (en en' : VolElement d K × List Nat), space[e]? = some en → space'[e]? = some en' → en'.2 = en.2 ∧
      ∀ q ∈ rules e, |(en'.1.jacobian q.2.1).det| = |(en.1.jacobian q.2.1).det| ∧ ∀ I J : Nat,
        o.contract (gradU s (en'.1.jacobian q.2.1) (en'.1.gradients q.2.1) (localPart s u' en'.2))
          (physGrad (en'.1.jacobian q.2.1) ((en'.1.gradients q.2.1)[I]?.getD 0)) (physGrad (en'.1.jacobian q.2.1) ((en'.1.gradients q.2.1)[J]?.getD 0)) q.2.2 =
        R * o.contract (gradU s (en.1.jacobian q.2.1) (en.1.gradients q.2.1) (localPart s u en.2))
          (physGrad (en.1.jacobian q.2.1) ((en.1.gradients q.2.1)[I]?.getD 0)) (physGrad (en.1.jacobian q.2.1) ((en.1.gradients q.2.1)[J]?.getD 0)) q.2.2 *
          R.transpose)
    (ord : List Nat → List Nat) (hord : ∀ l, (ord l).Perm l) (sortNodes : List (Nat × Nat) → List (Nat × Nat)) (hsort : SortsNodes sortNodes)
    (bufs bufs' : Nat → Buffer (Point d K) K Param) (outs outs' : Nat → Mat K) (elemMat elemMat' : Nat → Except String (Mat K))
    (hem : ∀ e, e < space.length → ∃ buf', elementMatrix space o table u (bufs e) (outs e) e = some (elemMat e, buf'))
    (hem' : ∀ e, e < space'.length → ∃ buf', elementMatrix space' o table' u' (bufs' e) (outs' e) e = some (elemMat' e, buf')) (m m' : Assembly.Csr K)
    (hm : Assembly.assemble ord sortNodes (conn s space N) elemMat = some (.ok m))
    (hm' : Assembly.assemble ord sortNodes (conn s space' N) elemMat' = some (.ok m')) : MatrixTurned R N (entry m) (entry m') := by
  intro n hn n' hn' i j
  have hnd' : ∀ en ∈ space', en.2.Nodup := by
    intro en' hen'
    obtain ⟨e, he⟩ := List.getElem?_of_mem hen'
    have hlt : e < space.length := hlen ▸ (List.getElem?_eq_some_iff.1 he).1
    rw [(hpoint e _ _ (List.getElem?_eq_getElem hlt) he).1]
    exact hnd _ (List.getElem_mem hlt)
  have key : ∀ (rs : List (QPoint d K Param)) (en en' : VolElement d K × List Nat), (en'.2 = en.2 ∧
      ∀ q ∈ rs, |(en'.1.jacobian q.2.1).det| = |(en.1.jacobian q.2.1).det| ∧ ∀ I J : Nat,
        o.contract (gradU s (en'.1.jacobian q.2.1) (en'.1.gradients q.2.1) (localPart s u' en'.2))
          (physGrad (en'.1.jacobian q.2.1) ((en'.1.gradients q.2.1)[I]?.getD 0)) (physGrad (en'.1.jacobian q.2.1) ((en'.1.gradients q.2.1)[J]?.getD 0)) q.2.2 =
        R * o.contract (gradU s (en.1.jacobian q.2.1) (en.1.gradients q.2.1) (localPart s u en.2))
          (physGrad (en.1.jacobian q.2.1) ((en.1.gradients q.2.1)[I]?.getD 0)) (physGrad (en.1.jacobian q.2.1) ((en.1.gradients q.2.1)[J]?.getD 0)) q.2.2 *
          R.transpose) →
      (quadSum en'.1 rs fun p param => ∑ I : Fin en'.2.length, ∑ J : Fin en'.2.length, if en'.2[I] = n ∧ en'.2[J] = n' then
        o.contract (gradU s (en'.1.jacobian p) (en'.1.gradients p) (localPart s u' en'.2))
          (physGrad (en'.1.jacobian p) ((en'.1.gradients p)[(I : Nat)]?.getD 0)) (physGrad (en'.1.jacobian p) ((en'.1.gradients p)[(J : Nat)]?.getD 0))
          param i j else 0) =
      ∑ k, ∑ l, R i k * R j l * quadSum en.1 rs fun p param => ∑ I : Fin en.2.length, ∑ J : Fin en.2.length, if en.2[I] = n ∧ en.2[J] = n' then
        o.contract (gradU s (en.1.jacobian p) (en.1.gradients p) (localPart s u en.2))
          (physGrad (en.1.jacobian p) ((en.1.gradients p)[(I : Nat)]?.getD 0)) (physGrad (en.1.jacobian p) ((en.1.gradients p)[(J : Nat)]?.getD 0))
          param k l else 0 := by
    rintro rs ⟨el, nodes⟩ ⟨el', nodes'⟩ ⟨rfl, hp⟩
    simp only [quadSum_mul_left', quadSum_finsetSum]
    unfold quadSum
    congr 1
    refine List.map_congr_left fun q hq => ?_
    rw [(hp q hq).1]
    congr 1
    simp only [Finset.mul_sum]
    have hc : ∀ f : Fin s → Fin s → Fin nodes'.length → Fin nodes'.length → K, ∑ k, ∑ l, ∑ I, ∑ J, f k l I J = ∑ I, ∑ J, ∑ k, ∑ l, f k l I J := by
      intro f
      rw [Finset.sum_congr rfl fun k _ => Finset.sum_comm, Finset.sum_comm]
      refine Finset.sum_congr rfl fun I _ => ?_
      rw [Finset.sum_congr rfl fun k _ => Finset.sum_comm, Finset.sum_comm]
    rw [hc]
    refine Finset.sum_congr rfl fun I _ => Finset.sum_congr rfl fun J _ => ?_
    by_cases hI : nodes'[I] = n ∧ nodes'[J] = n'
    · simp only [if_pos hI]
      rw [(hp q hq).2 I J, Matrix.mul_apply]
      simp only [Matrix.mul_apply, Matrix.transpose_apply, Finset.sum_mul]
      rw [Finset.sum_comm]
      exact Finset.sum_congr rfl fun k _ => Finset.sum_congr rfl fun l _ => by ring
    · simp only [if_neg hI, mul_zero, Finset.sum_const_zero]
  rw [node_block hs h' hnd' o hsym ord hord sortNodes hsort bufs' outs' elemMat' hem' m' hm' n n' i j]
  have e1 : ∀ k l : Fin s, R i k * entry m (s * n + k) (s * n' + l) * R j l = R i k * R j l * entry m (s * n + k) (s * n' + l) := fun k l => by ring
  simp only [e1]
  simp only [node_block hs h hnd o hsym ord hord sortNodes hsort bufs outs elemMat hem m hm n n', Finset.mul_sum]
  rw [Finset.sum_congr rfl fun k _ => Finset.sum_comm, Finset.sum_comm]
  apply Fintype.sum_equiv (finCongr hlen)
  intro e
  have he : (e : Nat) < space.length := hlen ▸ e.2
  exact key _ _ _ (hpoint e _ _ (List.getElem?_eq_getElem he) (List.getElem?_eq_getElem e.2))

/-- **C106.** Moving the whole problem: if the mesh is turned by `Q` and translated, and the values at the nodes are turned by `R`, then the assembled matrix
is turned by `R` on both sides, for every operator whose contraction turns along with the gradients. -/
theorem C106_moved_matrix {kind : Kind} {mesh mesh' : Mesh (Point kind.dim K)} {space space' : Space kind.dim K}
    {table : Table (Point kind.dim K) K Param} {rules : Nat → List (QPoint kind.dim K Param)} {u u' : List K} (hs : 0 < s)
    (hspace : meshSpace kind mesh = some space) (hspace' : meshSpace kind mesh' = some space')
    (hb : ∀ c ∈ mesh.cells, ∀ v ∈ c, v < mesh.vertices.length) (hcells : mesh'.cells = mesh.cells) (hN : mesh'.vertices.length = mesh.vertices.length)
    (h : Discretisation space mesh.vertices.length table rules u s) (hu' : u'.length = u.length) (hnd : ∀ en ∈ space, en.2.Nodup)
    (Q : Matrix (Fin kind.dim) (Fin kind.dim) K)
    (hQ : Q.transpose * Q = 1) (b : Point kind.dim K) (hmove : Moved Q b mesh.vertices.length (reference mesh.vertices) (reference mesh'.vertices))
    (R : Matrix (Fin s) (Fin s) K) (hturn : Turned R mesh.vertices.length u u') (o : Operator kind.dim s K Param) (hsym : SymmetryLaw o)
    (ho : ∀ (e : Nat) (en : VolElement kind.dim K × List Nat), space[e]? = some en → ∀ q ∈ rules e,
      ∀ G, G = gradU s (en.1.jacobian q.2.1) (en.1.gradients q.2.1) (localPart s u en.2) → ∀ a b,
        o.contract (Q * G * R.transpose) (Q.mulVec a) (Q.mulVec b) q.2.2 = R * o.contract G a b q.2.2 * R.transpose)
    (ord : List Nat → List Nat) (hord : ∀ l, (ord l).Perm l) (sortNodes : List (Nat × Nat) → List (Nat × Nat)) (hsort : SortsNodes sortNodes)
    (bufs bufs' : Nat → Buffer (Point kind.dim K) K Param) (outs outs' : Nat → Mat K) (elemMat elemMat' : Nat → Except String (Mat K))
    (hem : ∀ e, e < space.length → ∃ buf', elementMatrix space o table u (bufs e) (outs e) e = some (elemMat e, buf'))
    (hem' : ∀ e, e < space'.length → ∃ buf', elementMatrix space' o table u' (bufs' e) (outs' e) e = some (elemMat' e, buf')) (m m' : Assembly.Csr K)
    (hm : Assembly.assemble ord sortNodes (conn s space mesh.vertices.length) elemMat = some (.ok m))
    (hm' : Assembly.assemble ord sortNodes (conn s space' mesh.vertices.length) elemMat' = some (.ok m')) :
    MatrixTurned R mesh.vertices.length (entry m) (entry m') := by
  have h' := C106_moved_mesh_usable hspace hspace' hb hcells hN h hu' Q hQ b hmove
  refine matrix_turned_of_points hs h h' hnd o hsym R (moved_length hspace hspace' hb hcells hN) ?_ ord hord sortNodes hsort bufs bufs' outs outs' elemMat elemMat'
    hem hem' m m' hm hm'
  intro e en en' hen hen'
  have hmv := moved_element hspace hspace' hb hcells hN h Q b hmove hen hen'
  refine ⟨hmv.1, fun q hq => ⟨?_, fun I J => ?_⟩⟩
  · rw [hmv.2.1, Matrix.det_mul, abs_mul, abs_det_orthogonal hQ, one_mul]
  · rw [gradU_moved Q hQ R hturn h (List.mem_of_getElem? hen) q.2.1 hmv, hmv.2.1, hmv.2.2.1, physGrad_moved Q hQ, physGrad_moved Q hQ]
    exact ho e en hen q hq _ rfl _ _

end generic

/-! ## The operators -/

/-- **C106.** The contraction of the Laplace operator turns along with the gradients. -/
theorem C106_laplace_contraction_turns {K : Type} [Field K] [LinearOrder K] [IsStrictOrderedRing K] (d : Nat) (Q : Matrix (Fin d) (Fin d) K)
    (hQ : Q.transpose * Q = 1) (G : Matrix (Fin d) (Fin 1) K) (a b : Point d K) :
    (laplace d K).contract (Q * G * (1 : Matrix (Fin 1) (Fin 1) K).transpose) (Q.mulVec a) (Q.mulVec b) () =
      1 * (laplace d K).contract G a b () * (1 : Matrix (Fin 1) (Fin 1) K).transpose := by
  rw [Matrix.transpose_one, Matrix.one_mul, Matrix.mul_one, Matrix.mul_one]
  ext i j
  change Q.mulVec a ⬝ᵥ Q.mulVec b = a ⬝ᵥ b
  rw [Matrix.dotProduct_mulVec, Matrix.vecMul_mulVec, hQ, Matrix.vecMul_one]

section materials
variable {d : Nat}

private theorem dot_turned {S : Matrix (Fin d) (Fin d) ℝ} (hS : S.transpose * S = 1) (a b : Point d ℝ) : S.mulVec a ⬝ᵥ S.mulVec b = a ⬝ᵥ b := by
  rw [Matrix.dotProduct_mulVec, Matrix.vecMul_mulVec, hS, Matrix.vecMul_one]

private theorem vecMulVec_turned (Q : Matrix (Fin d) (Fin d) ℝ) (a b : Point d ℝ) :
    Matrix.vecMulVec (Q.mulVec a) (Q.mulVec b) = Q * Matrix.vecMulVec a b * Q.transpose := by
  rw [Matrix.mul_vecMulVec, Matrix.vecMulVec_mul, Matrix.vecMul_transpose]

/-- **C106.** The contractions of the materials: turning the deformed body by `Q` and the reference body by `S` turns the contraction by `Q` on both sides.
The linear material requires that both are turned together. -/
theorem C106_contractions_turn (m : Material d) (Q S F : Matrix (Fin d) (Fin d) ℝ) (hQ : Q.transpose * Q = 1) (hS : S.transpose * S = 1)
    (hm : (m = linearElastic d ∧ S = Q) ∨ m = stvk d ∨ (m = neoHookean d ∧ Q.det * S.det = 1)) (a b : Point d ℝ) (p : Lame ℝ)
    (C : Matrix (Fin d) (Fin d) ℝ) (hC : m.contraction F a b p = .val C) :
    m.contraction (Q * F * S.transpose) (S.mulVec a) (S.mulVec b) p = .val (Q * C * Q.transpose) := by
  have hQ' : Q * Q.transpose = 1 := mul_eq_one_comm.mp hQ
  have hS' : S * S.transpose = 1 := mul_eq_one_comm.mp hS
  have hF : ∀ a : Point d ℝ, (Q * F * S.transpose).mulVec (S.mulVec a) = Q.mulVec (F.mulVec a) := fun a => by
    rw [Matrix.mulVec_mulVec, Matrix.mul_assoc, hS, Matrix.mul_one, Matrix.mulVec_mulVec]
  rcases hm with ⟨rfl, rfl⟩ | rfl | ⟨rfl, hdet⟩
  · cases hC
    change Out.val (leContraction (S * F * S.transpose) (S.mulVec a) (S.mulVec b) p) = .val (S * leContraction F a b p * S.transpose)
    rw [leContraction, leContraction, dot_turned hS, vecMulVec_turned, vecMulVec_turned]
    simp only [Matrix.mul_add, Matrix.add_mul, Matrix.mul_smul, Matrix.smul_mul, Matrix.mul_one, hS']
  · cases hC
    change Out.val (stvkContraction (Q * F * S.transpose) (S.mulVec a) (S.mulVec b) p) = .val (Q * stvkContraction F a b p * Q.transpose)
    have hT : (Q * F * S.transpose).transpose = S * F.transpose * Q.transpose := by
      rw [Matrix.transpose_mul, Matrix.transpose_mul, Matrix.transpose_transpose, Matrix.mul_assoc]
    have hE : greenStrain (Q * F * S.transpose) = S * greenStrain F * S.transpose := by
      have e1 : S * F.transpose * Q.transpose * (Q * F * S.transpose) = S * (F.transpose * F) * S.transpose := by
        calc S * F.transpose * Q.transpose * (Q * F * S.transpose) = S * F.transpose * (Q.transpose * Q) * F * S.transpose := by
              simp only [Matrix.mul_assoc]
          _ = _ := by rw [hQ, Matrix.mul_one, Matrix.mul_assoc S]
      rw [greenStrain, greenStrain, hT, e1, Matrix.mul_smul, Matrix.smul_mul, Matrix.mul_sub, Matrix.sub_mul, Matrix.mul_one, hS']
    have hFF : Q * F * S.transpose * (S * F.transpose * Q.transpose) = Q * (F * F.transpose) * Q.transpose := by
      calc Q * F * S.transpose * (S * F.transpose * Q.transpose) = Q * F * (S.transpose * S) * F.transpose * Q.transpose := by
            simp only [Matrix.mul_assoc]
        _ = _ := by rw [hS, Matrix.mul_one, Matrix.mul_assoc Q]
    have htr : (S * greenStrain F * S.transpose).trace = (greenStrain F).trace := by
      rw [Matrix.trace_mul_comm, ← Matrix.mul_assoc, hS, Matrix.one_mul]
    have hEb : (S * greenStrain F * S.transpose).mulVec (S.mulVec b) = S.mulVec ((greenStrain F).mulVec b) := by
      rw [Matrix.mulVec_mulVec, Matrix.mul_assoc, hS, Matrix.mul_one, Matrix.mulVec_mulVec]
    rw [stvkContraction, stvkContraction]
    simp only [hE, hEb, hF, hT, hFF, htr, dot_turned hS, vecMulVec_turned, Matrix.mul_add, Matrix.add_mul, Matrix.mul_smul, Matrix.smul_mul, Matrix.mul_one, hQ']
  · have hdet' : (Q * F * S.transpose).det = F.det := by
      rw [Matrix.det_mul, Matrix.det_mul, Matrix.det_transpose, mul_right_comm, hdet, one_mul]
    have heq : ∀ F : Matrix (Fin d) (Fin d) ℝ, 0 < F.det → ∀ a b, nhContraction F a b p =
        .val (nhKernel F⁻¹.transpose (-p.mu + p.lambda * Real.log F.det) p a b) := by
      intro F hF a b
      rw [nhContraction]
      simp only [if_neg (not_le.mpr hF), Local.tryInverse_eq F hF.ne']
    change nhContraction F a b p = .val C at hC
    have hpos : 0 < F.det := by
      by_contra hn
      rw [nhContraction] at hC
      simp only [if_pos (not_lt.1 hn)] at hC
      cases hC
    change nhContraction (Q * F * S.transpose) _ _ p = _
    rw [heq F hpos] at hC
    rw [heq _ (hdet'.symm ▸ hpos), hdet']
    cases hC
    have hinv : (Q * F * S.transpose)⁻¹.transpose = Q * F⁻¹.transpose * S.transpose := by
      rw [Matrix.mul_inv_rev, Matrix.mul_inv_rev, Matrix.inv_eq_left_inv hQ, Matrix.inv_eq_left_inv (B := S) hS', Matrix.transpose_mul, Matrix.transpose_mul,
        Matrix.transpose_transpose]
    have hv : ∀ a : Point d ℝ, (Q * F⁻¹.transpose * S.transpose).mulVec (S.mulVec a) = Q.mulVec (F⁻¹.transpose.mulVec a) := fun a => by
      rw [Matrix.mulVec_mulVec, Matrix.mul_assoc, hS, Matrix.mul_one, Matrix.mulVec_mulVec]
    rw [nhKernel, nhKernel, hinv]
    simp only [hv, dot_turned hS, ← Matrix.mulVec_smul, vecMulVec_turned, Matrix.mul_add, Matrix.add_mul, Matrix.mul_sub, Matrix.sub_mul, Matrix.mul_smul,
      Matrix.smul_mul, Matrix.mul_one, hQ']

/-- The operator contracts as the material does, wherever that is a number. -/
def Contracts (o : Operator d d ℝ (Lame ℝ)) (m : Material d) : Prop :=
  ∀ G a b p C, m.contraction (deformationGradient G) a b p = .val C → o.contract G a b p = C

/-- C106: the operators of the linear elastic and the St. Venant-Kirchhoff material contract as these materials do. -/
theorem C106_operators_contract (d : Nat) : Contracts (leOperator d) (linearElastic d) ∧ Contracts (stvkOperator d) (stvk d) :=
  ⟨fun G a b p C h => by cases h; rfl, fun G a b p C h => by cases h; rfl⟩

/-- **C106.** The operator of an isotropic material: the contraction turns along with the gradient of the displacement, as `C106_moved_matrix` requires. -/
theorem C106_solid_contraction_turns (m : Material d) (hm : m = linearElastic d ∨ m = stvk d ∨ m = neoHookean d) (o : Operator d d ℝ (Lame ℝ))
    (ho : Contracts o m) (Q G : Matrix (Fin d) (Fin d) ℝ) (hQ : Q.transpose * Q = 1) (a b : Point d ℝ) (p : Lame ℝ)
    (hval : ∃ C, m.contraction (deformationGradient G) a b p = .val C) :
    o.contract (Q * G * Q.transpose) (Q.mulVec a) (Q.mulVec b) p = Q * o.contract G a b p * Q.transpose := by
  have hF : deformationGradient (Q * G * Q.transpose) = Q * deformationGradient G * Q.transpose := by
    rw [deformationGradient, deformationGradient, Matrix.transpose_mul, Matrix.transpose_mul, Matrix.transpose_transpose, Matrix.mul_add, Matrix.add_mul,
      Matrix.mul_one, mul_eq_one_comm.mp hQ, Matrix.mul_assoc]
  obtain ⟨C, hC⟩ := hval
  have hd := congrArg Matrix.det hQ
  rw [Matrix.det_mul, Matrix.det_transpose, Matrix.det_one] at hd
  rw [ho _ _ _ _ _ hC]
  refine ho _ _ _ _ _ ?_
  rw [hF]
  refine C106_contractions_turn m Q Q _ hQ hQ ?_ a b p C hC
  rcases hm with rfl | rfl | rfl
  · exact .inl ⟨rfl, rfl⟩
  · exact .inr (.inl rfl)
  · exact .inr (.inr ⟨rfl, hd⟩)

end materials

section mesh
variable {kind : Kind} {mesh : Mesh (Point kind.dim ℝ)} {space : Space kind.dim ℝ} {table : Table (Point kind.dim ℝ) ℝ (Lame ℝ)}
  {rules : Nat → List (QPoint kind.dim ℝ (Lame ℝ))} {u u' : List ℝ} [Inhabited (Lame ℝ)]

/-- **C106.** The tangent matrix turns with the body: if the displacements `u'` put the nodes where `u` puts them, followed by a rotation `Q` and a
translation, then for the nonlinear materials the matrix assembled at `u'` is that at `u`, turned by `Q` on both sides. -/
theorem C106_tangent_turns (hspace : meshSpace kind mesh = some space) (hb : ∀ c ∈ mesh.cells, ∀ v ∈ c, v < mesh.vertices.length)
    (hshape : Shaped kind mesh) (h : Discretisation space mesh.vertices.length table rules u kind.dim) (hu' : u'.length = u.length)
    (hnd : ∀ en ∈ space, en.2.Nodup)
    (m : Material kind.dim) (hm : m = stvk kind.dim ∨ m = neoHookean kind.dim) (o : Operator kind.dim kind.dim ℝ (Lame ℝ)) (ho : Contracts o m)
    (hsym : SymmetryLaw o)
    (hval : ∀ (e : Nat) (en : VolElement kind.dim ℝ × List Nat), space[e]? = some en → ∀ q ∈ rules e, ∀ a b, ∃ C,
      m.contraction (deformationGradient (gradU kind.dim (en.1.jacobian q.2.1) (en.1.gradients q.2.1) (localPart kind.dim u en.2))) a b q.2.2 = .val C)
    (Q : Matrix (Fin kind.dim) (Fin kind.dim) ℝ) (hQ : Q.transpose * Q = 1) (hQ1 : Q.det = 1) (b : Point kind.dim ℝ)
    (hmove : Moved Q b mesh.vertices.length (deformed mesh.vertices u) (deformed mesh.vertices u'))
    (ord : List Nat → List Nat) (hord : ∀ l, (ord l).Perm l) (sortNodes : List (Nat × Nat) → List (Nat × Nat)) (hsort : SortsNodes sortNodes)
    (bufs bufs' : Nat → Buffer (Point kind.dim ℝ) ℝ (Lame ℝ)) (outs outs' : Nat → Mat ℝ) (elemMat elemMat' : Nat → Except String (Mat ℝ))
    (hem : ∀ e, e < space.length → ∃ buf', elementMatrix space o table u (bufs e) (outs e) e = some (elemMat e, buf'))
    (hem' : ∀ e, e < space.length → ∃ buf', elementMatrix space o table u' (bufs' e) (outs' e) e = some (elemMat' e, buf')) (A A' : Assembly.Csr ℝ)
    (hA : Assembly.assemble ord sortNodes (conn kind.dim space mesh.vertices.length) elemMat = some (.ok A))
    (hA' : Assembly.assemble ord sortNodes (conn kind.dim space mesh.vertices.length) elemMat' = some (.ok A')) :
    MatrixTurned Q mesh.vertices.length (entry A) (entry A') := by
  have hs : 0 < kind.dim := by cases kind <;> decide
  have h' : Discretisation space mesh.vertices.length table rules u' kind.dim := { h with uLength := hu'.trans h.uLength }
  refine matrix_turned_of_points hs h h' hnd o hsym Q rfl ?_ ord hord sortNodes hsort bufs bufs' outs outs' elemMat elemMat' hem hem' A A' hA hA'
  intro e en en' hen hen'
  obtain rfl : en = en' := Option.some.inj (hen.symm.trans hen')
  refine ⟨rfl, fun q hq => ⟨rfl, fun I J => ?_⟩⟩
  have hF := deformation_moved hspace hb hshape h Q b hmove hen hq
  obtain ⟨C, hC⟩ := hval e en hen q hq (physGrad (en.1.jacobian q.2.1) ((en.1.gradients q.2.1)[I]?.getD 0))
    (physGrad (en.1.jacobian q.2.1) ((en.1.gradients q.2.1)[J]?.getD 0))
  rw [ho _ _ _ _ _ hC]
  refine ho _ _ _ _ _ ?_
  rw [hF]
  have := C106_contractions_turn m Q 1 _ hQ (by simp) (by
    rcases hm with rfl | rfl
    · exact .inr (.inl rfl)
    · exact .inr (.inr ⟨rfl, by rw [Matrix.det_one, mul_one, hQ1]⟩)) _ _ _ C hC
  simpa only [Matrix.transpose_one, Matrix.mul_one, Matrix.one_mulVec] using this

end mesh

/-! ## A rotated triangle -/

/-- The displacements that stretch the triangle and then turn it by 90 degrees. -/
private def stretchTurned' : List ℝ := [3, -1, -1, 3, 1, -3]

-- The hypotheses of `C106_tangent_turns` hold for a triangle that is stretched and turned by 90 degrees.
example [Inhabited (Lame ℝ)] (par : Lame ℝ) (ord : List Nat → List Nat) (hord : ∀ l, (ord l).Perm l)
    (sortNodes : List (Nat × Nat) → List (Nat × Nat)) (hsort : SortsNodes sortNodes) (bufs bufs' : Nat → Buffer (Point 2 ℝ) ℝ (Lame ℝ))
    (outs outs' : Nat → Mat ℝ) (elemMat elemMat' : Nat → Except String (Mat ℝ))
    (hem : ∀ e, e < plateSpace.length → ∃ buf', elementMatrix plateSpace (stvkOperator 2) (Uniform.table ⟨[![0, 0]], [2], [par]⟩) stretch (bufs e) (outs e) e =
      some (elemMat e, buf'))
    (hem' : ∀ e, e < plateSpace.length → ∃ buf', elementMatrix plateSpace (stvkOperator 2) (Uniform.table ⟨[![0, 0]], [2], [par]⟩) stretchTurned'
      (bufs' e) (outs' e) e = some (elemMat' e, buf')) (A A' : Assembly.Csr ℝ)
    (hA : Assembly.assemble ord sortNodes (conn 2 plateSpace 3) elemMat = some (.ok A))
    (hA' : Assembly.assemble ord sortNodes (conn 2 plateSpace 3) elemMat' = some (.ok A')) :
    MatrixTurned !![0, -1; 1, 0] 3 (entry A) (entry A') :=
  C106_tangent_turns (kind := .tri3) (mesh := plate) plate_space (by simp [plate]) (.inl (by simp)) (u' := stretchTurned')
    (plate_disc par stretch rfl) rfl (by
      intro en hen
      obtain rfl := List.mem_singleton.1 hen
      decide) (stvk 2) (.inl rfl) (stvkOperator 2) (C106_operators_contract 2).2
    C57_operator_symmetric.2 (fun _ _ _ _ _ _ _ => ⟨_, rfl⟩) !![0, -1; 1, 0] (by
      ext i j
      fin_cases i <;> fin_cases j <;> simp [Matrix.mul_apply, Fin.sum_univ_two]) (by simp) 0 (by
      intro n hn
      have hn' : n < 3 := hn
      interval_cases n <;> ext i <;> fin_cases i <;> simp [deformed, reference, plate, stretchTurned', stretch, dotProduct] <;> norm_num)
    ord hord sortNodes hsort bufs bufs' outs outs' elemMat elemMat' hem hem' A A' hA hA'

-- The hypotheses of `C106_moved_matrix` about the operator, for the linear elastic material and the rotation by 90 degrees; those about the mesh hold for
-- the turned triangle at the end of `Verif.Props.Objectivity`.
example (G : Matrix (Fin 2) (Fin 2) ℝ) (a b : Point 2 ℝ) (p : Lame ℝ) : SymmetryLaw (leOperator 2) ∧ (∀ en ∈ plateSpace, en.2.Nodup) ∧
    (leOperator 2).contract (!![0, -1; 1, 0] * G * !![0, -1; 1, 0].transpose) (!![0, -1; 1, 0].mulVec a) (!![0, -1; 1, 0].mulVec b) p =
      !![0, -1; 1, 0] * (leOperator 2).contract G a b p * !![0, -1; 1, 0].transpose := by
  refine ⟨C57_operator_symmetric.1, fun en hen => ?_, C106_solid_contraction_turns (linearElastic 2) (.inl rfl) _ (C106_operators_contract 2).1 _ _ ?_ _ _ _ ⟨_, rfl⟩⟩
  · obtain rfl := List.mem_singleton.1 hen
    decide
  · ext i j
    fin_cases i <;> fin_cases j <;> simp [Matrix.mul_apply, Fin.sum_univ_two]

end Fenris.Objectivity
