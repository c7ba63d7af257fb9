import Verif.Props.ElementAssembly
import Verif.Model.Solid
/-! # C29: the gravity source -/
set_option autoImplicit false

namespace Fenris
namespace Local

open Spec

variable {K : Type} [Field K] [LinearOrder K] {d : Nat}

/-- **C29.** The element vector of the gravity source has at node `I` the quadrature sum of `N_I ρ`, times the
acceleration. -/
theorem C29_gravity_vector (el : VolElement d K) (hel : WellFormed el) (acceleration : Point d K)
    (rule : List (QPoint d K K)) (out0 : Nat → K) :
    ∃ out, sourceVector el (Solid.gravityEvaluate acceleration) (rule.map (·.1)) (rule.map (·.2.1)) (rule.map (·.2.2)) out0
        = some out ∧
      ∀ (I : Nat) (i : Fin d), I < el.numNodes →
        out (d * I + i) = acceleration i * quadSum el rule fun p density => (el.basis p)[I]?.getD 0 * density := by
  obtain ⟨out, h, h1⟩ := C29_source_vector_is_quadrature_sum el hel (Solid.gravityEvaluate acceleration) rule out0
  refine ⟨out, h, fun I i hI => ?_⟩
  rw [h1 I i hI, quadSum, quadSum, ← List.sum_map_mul_left]
  congr 1
  apply List.map_congr_left
  intro q _
  simp only [Solid.gravityEvaluate, Pi.smul_apply, smul_eq_mul]
  ring

/-- **C29.** For every element of the library the nodal gravity forces add up to the mass of the element, as the rule
computes it, times the acceleration. -/
theorem C29_gravity_total_force [CharZero K] (e : Element.Kind) (vertices : List (Point e.dim K))
    (acceleration : Point e.dim K) (rule : List (QPoint e.dim K K)) (out0 out : Nat → K)
    (h : sourceVector (elementOfKind e vertices) (Solid.gravityEvaluate acceleration) (rule.map (·.1)) (rule.map (·.2.1))
      (rule.map (·.2.2)) out0 = some out) (i : Fin e.dim) :
    ∑ I ∈ Finset.range e.numNodes, out (e.dim * I + i) =
      acceleration i * quadSum (elementOfKind e vertices) rule fun _ density => density := by
  obtain ⟨out', h1, h2⟩ := C29_gravity_vector _ (elementOfKind_wellFormed e vertices) acceleration rule out0
  rw [h] at h1
  cases h1
  have hpu : ∀ p, ∑ I ∈ Finset.range e.numNodes, ((elementOfKind e vertices).basis p)[I]?.getD 0 = 1 := by
    intro p
    obtain ⟨hl, hs⟩ := C35_basis_sums_to_one e p
    rw [Finset.sum_range, ← List.sum_ofFn]
    refine Eq.trans ?_ hs
    congr 1
    apply List.ext_getElem
    · simp [hl]
    · intro n h1 h2
      simp only [List.getElem_ofFn]
      rw [show ((elementOfKind e vertices).basis p)[n]? = some ((Element.basis e p)[n]) from
        List.getElem?_eq_getElem h2]
      rfl
  have h3 : ∀ I ∈ Finset.range e.numNodes, out (e.dim * I + i) = acceleration i *
      quadSum (elementOfKind e vertices) rule fun p density => ((elementOfKind e vertices).basis p)[I]?.getD 0 * density :=
    fun I hI => h2 I i (Finset.mem_range.1 hI)
  rw [Finset.sum_congr rfl h3, ← Finset.mul_sum, quadSum_finsetSum]
  congr 1
  apply quadSum_congr
  intro p density
  rw [← Finset.sum_mul, hpu, one_mul]

/-- The unit triangle, one point with weight `1/2` and density `6`: a third of the weight `3 g` at each node. -/
example : (sourceVector (elementOfKind (K := ℚ) .tri3 [![0, 0], ![1, 0], ![0, 1]]) (Solid.gravityEvaluate ![0, -10])
    [2] [![-1 / 3, -1 / 3]] [6] fun _ => 0).map (fun out => (List.range 6).map out) = some [0, -10, 0, -10, 0, -10] := by
  decide +kernel

end Local
end Fenris
