import Verif.Lemmas.TetGeometry
/-! # The groups of tetrahedra cover the cells -/
set_option autoImplicit false

namespace Fenris
namespace TetGrid
open Spec
variable {K : Type} [Field K] [LinearOrder K] [IsStrictOrderedRing K]

private theorem cover_conn0 (x : Point 3 K) (h1 : x 1 ≤ x 0) (h2 : -x 1 ≤ x 0) (h3 : x 1 ≤ 1 - x 0) (h4 : -x 1 ≤ 1 - x 0)
    (k1 : x 2 ≤ x 0) (k2 : -x 2 ≤ x 0) (k3 : x 2 ≤ 1 - x 0) (k4 : -x 2 ≤ 1 - x 0) : ∃ t ∈ connU 0, InL t x := by
  rcases le_total (x 1) (x 2) with l1 | l1 <;> rcases le_total (-x 1) (x 2) with l2 | l2
  · refine ⟨_, List.mem_of_getElem? (i := 0) rfl, _, _, _, _, rfl,
      -x 0 - x 2 + 1, x 0 - x 2, x 1 + x 2, -x 1 + x 2, ?_, ?_, ?_, ?_, ?_, ?_⟩
    · linarith
    · linarith
    · linarith
    · linarith
    · ring
    · intro i
      fin_cases i <;> simp [faceDeltas, axisDelta] <;> ring
  · refine ⟨_, List.mem_of_getElem? (i := 3) rfl, _, _, _, _, rfl,
      -x 0 + x 1 + 1, x 0 + x 1, -x 1 + x 2, -x 1 - x 2, ?_, ?_, ?_, ?_, ?_, ?_⟩
    · linarith
    · linarith
    · linarith
    · linarith
    · ring
    · intro i
      fin_cases i <;> simp [faceDeltas, axisDelta] <;> ring
  · refine ⟨_, List.mem_of_getElem? (i := 1) rfl, _, _, _, _, rfl,
      -x 0 - x 1 + 1, x 0 - x 1, x 1 - x 2, x 1 + x 2, ?_, ?_, ?_, ?_, ?_, ?_⟩
    · linarith
    · linarith
    · linarith
    · linarith
    · ring
    · intro i
      fin_cases i <;> simp [faceDeltas, axisDelta] <;> ring
  · refine ⟨_, List.mem_of_getElem? (i := 2) rfl, _, _, _, _, rfl,
      -x 0 + x 2 + 1, x 0 + x 2, -x 1 - x 2, x 1 - x 2, ?_, ?_, ?_, ?_, ?_, ?_⟩
    · linarith
    · linarith
    · linarith
    · linarith
    · ring
    · intro i
      fin_cases i <;> simp [faceDeltas, axisDelta] <;> ring

private theorem cover_conn1 (x : Point 3 K) (h1 : x 0 ≤ x 1) (h2 : -x 0 ≤ x 1) (h3 : x 0 ≤ 1 - x 1) (h4 : -x 0 ≤ 1 - x 1)
    (k1 : x 2 ≤ x 1) (k2 : -x 2 ≤ x 1) (k3 : x 2 ≤ 1 - x 1) (k4 : -x 2 ≤ 1 - x 1) : ∃ t ∈ connU 1, InL t x := by
  rcases le_total (x 0) (x 2) with l1 | l1 <;> rcases le_total (-x 0) (x 2) with l2 | l2
  · refine ⟨_, List.mem_of_getElem? (i := 2) rfl, _, _, _, _, rfl,
      -x 1 - x 2 + 1, x 1 - x 2, -x 0 + x 2, x 0 + x 2, ?_, ?_, ?_, ?_, ?_, ?_⟩
    · linarith
    · linarith
    · linarith
    · linarith
    · ring
    · intro i
      fin_cases i <;> simp [faceDeltas, axisDelta] <;> ring
  · refine ⟨_, List.mem_of_getElem? (i := 3) rfl, _, _, _, _, rfl,
      x 0 - x 1 + 1, x 0 + x 1, -x 0 - x 2, -x 0 + x 2, ?_, ?_, ?_, ?_, ?_, ?_⟩
    · linarith
    · linarith
    · linarith
    · linarith
    · ring
    · intro i
      fin_cases i <;> simp [faceDeltas, axisDelta] <;> ring
  · refine ⟨_, List.mem_of_getElem? (i := 1) rfl, _, _, _, _, rfl,
      -x 0 - x 1 + 1, -x 0 + x 1, x 0 + x 2, x 0 - x 2, ?_, ?_, ?_, ?_, ?_, ?_⟩
    · linarith
    · linarith
    · linarith
    · linarith
    · ring
    · intro i
      fin_cases i <;> simp [faceDeltas, axisDelta] <;> ring
  · refine ⟨_, List.mem_of_getElem? (i := 0) rfl, _, _, _, _, rfl,
      -x 1 + x 2 + 1, x 1 + x 2, x 0 - x 2, -x 0 - x 2, ?_, ?_, ?_, ?_, ?_, ?_⟩
    · linarith
    · linarith
    · linarith
    · linarith
    · ring
    · intro i
      fin_cases i <;> simp [faceDeltas, axisDelta] <;> ring

private theorem cover_conn2 (x : Point 3 K) (h1 : x 0 ≤ x 2) (h2 : -x 0 ≤ x 2) (h3 : x 0 ≤ 1 - x 2) (h4 : -x 0 ≤ 1 - x 2)
    (k1 : x 1 ≤ x 2) (k2 : -x 1 ≤ x 2) (k3 : x 1 ≤ 1 - x 2) (k4 : -x 1 ≤ 1 - x 2) : ∃ t ∈ connU 2, InL t x := by
  rcases le_total (x 0) (x 1) with l1 | l1 <;> rcases le_total (-x 0) (x 1) with l2 | l2
  · refine ⟨_, List.mem_of_getElem? (i := 0) rfl, _, _, _, _, rfl,
      -x 1 - x 2 + 1, -x 1 + x 2, x 0 + x 1, -x 0 + x 1, ?_, ?_, ?_, ?_, ?_, ?_⟩
    · linarith
    · linarith
    · linarith
    · linarith
    · ring
    · intro i
      fin_cases i <;> simp [faceDeltas, axisDelta] <;> ring
  · refine ⟨_, List.mem_of_getElem? (i := 3) rfl, _, _, _, _, rfl,
      x 0 - x 2 + 1, x 0 + x 2, -x 0 + x 1, -x 0 - x 1, ?_, ?_, ?_, ?_, ?_, ?_⟩
    · linarith
    · linarith
    · linarith
    · linarith
    · ring
    · intro i
      fin_cases i <;> simp [faceDeltas, axisDelta] <;> ring
  · refine ⟨_, List.mem_of_getElem? (i := 1) rfl, _, _, _, _, rfl,
      -x 0 - x 2 + 1, -x 0 + x 2, x 0 - x 1, x 0 + x 1, ?_, ?_, ?_, ?_, ?_, ?_⟩
    · linarith
    · linarith
    · linarith
    · linarith
    · ring
    · intro i
      fin_cases i <;> simp [faceDeltas, axisDelta] <;> ring
  · refine ⟨_, List.mem_of_getElem? (i := 2) rfl, _, _, _, _, rfl,
      x 1 - x 2 + 1, x 1 + x 2, -x 0 - x 1, x 0 - x 1, ?_, ?_, ?_, ?_, ?_, ?_⟩
    · linarith
    · linarith
    · linarith
    · linarith
    · ring
    · intro i
      fin_cases i <;> simp [faceDeltas, axisDelta] <;> ring

private theorem cover_pyr0pe (x : Point 3 K) (h1 : x 1 ≤ x 0) (h2 : -x 1 ≤ x 0) (k1 : x 2 ≤ x 0) (k2 : -x 2 ≤ x 0) (h5 : x 0 ≤ 1 / 2) :
    ∃ t ∈ pyrU 0 true true, InL t x := by
  rcases le_total (-x 1) (x 2) with l1 | l1
  · refine ⟨_, List.mem_of_getElem? (i := 0) rfl, _, _, _, _, rfl,
      x 0 - x 1, x 1 + x 2, x 0 - x 2, (-2) * x 0 + 1, ?_, ?_, ?_, ?_, ?_, ?_⟩
    · linarith
    · linarith
    · linarith
    · linarith
    · ring
    · intro i
      fin_cases i <;> simp [faceDeltas, sideU] <;> ring
  · refine ⟨_, List.mem_of_getElem? (i := 1) rfl, _, _, _, _, rfl,
      x 0 + x 2, x 0 + x 1, -x 1 - x 2, (-2) * x 0 + 1, ?_, ?_, ?_, ?_, ?_, ?_⟩
    · linarith
    · linarith
    · linarith
    · linarith
    · ring
    · intro i
      fin_cases i <;> simp [faceDeltas, sideU] <;> ring

private theorem cover_pyr0po (x : Point 3 K) (h1 : x 1 ≤ x 0) (h2 : -x 1 ≤ x 0) (k1 : x 2 ≤ x 0) (k2 : -x 2 ≤ x 0) (h5 : x 0 ≤ 1 / 2) :
    ∃ t ∈ pyrU 0 true false, InL t x := by
  rcases le_total (x 1) (x 2) with l1 | l1
  · refine ⟨_, List.mem_of_getElem? (i := 0) rfl, _, _, _, _, rfl,
      -x 1 + x 2, x 0 + x 1, x 0 - x 2, (-2) * x 0 + 1, ?_, ?_, ?_, ?_, ?_, ?_⟩
    · linarith
    · linarith
    · linarith
    · linarith
    · ring
    · intro i
      fin_cases i <;> simp [faceDeltas, sideU] <;> ring
  · refine ⟨_, List.mem_of_getElem? (i := 1) rfl, _, _, _, _, rfl,
      x 0 + x 2, x 1 - x 2, x 0 - x 1, (-2) * x 0 + 1, ?_, ?_, ?_, ?_, ?_, ?_⟩
    · linarith
    · linarith
    · linarith
    · linarith
    · ring
    · intro i
      fin_cases i <;> simp [faceDeltas, sideU] <;> ring

private theorem cover_pyr0ne (x : Point 3 K) (h1 : x 1 ≤ -x 0) (h2 : -x 1 ≤ -x 0) (k1 : x 2 ≤ -x 0) (k2 : -x 2 ≤ -x 0) (h5 : -x 0 ≤ 1 / 2) :
    ∃ t ∈ pyrU 0 false true, InL t x := by
  rcases le_total (x 1) (x 2) with l1 | l1
  · refine ⟨_, List.mem_of_getElem? (i := 1) rfl, _, _, _, _, rfl,
      -x 0 - x 2, -x 0 + x 1, -x 1 + x 2, (2) * x 0 + 1, ?_, ?_, ?_, ?_, ?_, ?_⟩
    · linarith
    · linarith
    · linarith
    · linarith
    · ring
    · intro i
      fin_cases i <;> simp [faceDeltas, sideU] <;> ring
  · refine ⟨_, List.mem_of_getElem? (i := 0) rfl, _, _, _, _, rfl,
      -x 0 - x 1, x 1 - x 2, -x 0 + x 2, (2) * x 0 + 1, ?_, ?_, ?_, ?_, ?_, ?_⟩
    · linarith
    · linarith
    · linarith
    · linarith
    · ring
    · intro i
      fin_cases i <;> simp [faceDeltas, sideU] <;> ring

private theorem cover_pyr0no (x : Point 3 K) (h1 : x 1 ≤ -x 0) (h2 : -x 1 ≤ -x 0) (k1 : x 2 ≤ -x 0) (k2 : -x 2 ≤ -x 0) (h5 : -x 0 ≤ 1 / 2) :
    ∃ t ∈ pyrU 0 false false, InL t x := by
  rcases le_total (-x 1) (x 2) with l1 | l1
  · refine ⟨_, List.mem_of_getElem? (i := 1) rfl, _, _, _, _, rfl,
      -x 0 - x 2, x 1 + x 2, -x 0 - x 1, (2) * x 0 + 1, ?_, ?_, ?_, ?_, ?_, ?_⟩
    · linarith
    · linarith
    · linarith
    · linarith
    · ring
    · intro i
      fin_cases i <;> simp [faceDeltas, sideU] <;> ring
  · refine ⟨_, List.mem_of_getElem? (i := 0) rfl, _, _, _, _, rfl,
      -x 1 - x 2, -x 0 + x 1, -x 0 + x 2, (2) * x 0 + 1, ?_, ?_, ?_, ?_, ?_, ?_⟩
    · linarith
    · linarith
    · linarith
    · linarith
    · ring
    · intro i
      fin_cases i <;> simp [faceDeltas, sideU] <;> ring

private theorem cover_pyr1pe (x : Point 3 K) (h1 : x 0 ≤ x 1) (h2 : -x 0 ≤ x 1) (k1 : x 2 ≤ x 1) (k2 : -x 2 ≤ x 1) (h5 : x 1 ≤ 1 / 2) :
    ∃ t ∈ pyrU 1 true true, InL t x := by
  rcases le_total (x 0) (x 2) with l1 | l1
  · refine ⟨_, List.mem_of_getElem? (i := 1) rfl, _, _, _, _, rfl,
      x 1 - x 2, x 0 + x 1, -x 0 + x 2, (-2) * x 1 + 1, ?_, ?_, ?_, ?_, ?_, ?_⟩
    · linarith
    · linarith
    · linarith
    · linarith
    · ring
    · intro i
      fin_cases i <;> simp [faceDeltas, sideU] <;> ring
  · refine ⟨_, List.mem_of_getElem? (i := 0) rfl, _, _, _, _, rfl,
      -x 0 + x 1, x 0 - x 2, x 1 + x 2, (-2) * x 1 + 1, ?_, ?_, ?_, ?_, ?_, ?_⟩
    · linarith
    · linarith
    · linarith
    · linarith
    · ring
    · intro i
      fin_cases i <;> simp [faceDeltas, sideU] <;> ring

private theorem cover_pyr1po (x : Point 3 K) (h1 : x 0 ≤ x 1) (h2 : -x 0 ≤ x 1) (k1 : x 2 ≤ x 1) (k2 : -x 2 ≤ x 1) (h5 : x 1 ≤ 1 / 2) :
    ∃ t ∈ pyrU 1 true false, InL t x := by
  rcases le_total (-x 0) (x 2) with l1 | l1
  · refine ⟨_, List.mem_of_getElem? (i := 1) rfl, _, _, _, _, rfl,
      x 1 - x 2, x 0 + x 2, -x 0 + x 1, (-2) * x 1 + 1, ?_, ?_, ?_, ?_, ?_, ?_⟩
    · linarith
    · linarith
    · linarith
    · linarith
    · ring
    · intro i
      fin_cases i <;> simp [faceDeltas, sideU] <;> ring
  · refine ⟨_, List.mem_of_getElem? (i := 0) rfl, _, _, _, _, rfl,
      -x 0 - x 2, x 0 + x 1, x 1 + x 2, (-2) * x 1 + 1, ?_, ?_, ?_, ?_, ?_, ?_⟩
    · linarith
    · linarith
    · linarith
    · linarith
    · ring
    · intro i
      fin_cases i <;> simp [faceDeltas, sideU] <;> ring

private theorem cover_pyr1ne (x : Point 3 K) (h1 : x 0 ≤ -x 1) (h2 : -x 0 ≤ -x 1) (k1 : x 2 ≤ -x 1) (k2 : -x 2 ≤ -x 1) (h5 : -x 1 ≤ 1 / 2) :
    ∃ t ∈ pyrU 1 false true, InL t x := by
  rcases le_total (-x 0) (x 2) with l1 | l1
  · refine ⟨_, List.mem_of_getElem? (i := 0) rfl, _, _, _, _, rfl,
      -x 0 - x 1, x 0 + x 2, -x 1 - x 2, (2) * x 1 + 1, ?_, ?_, ?_, ?_, ?_, ?_⟩
    · linarith
    · linarith
    · linarith
    · linarith
    · ring
    · intro i
      fin_cases i <;> simp [faceDeltas, sideU] <;> ring
  · refine ⟨_, List.mem_of_getElem? (i := 1) rfl, _, _, _, _, rfl,
      -x 1 + x 2, x 0 - x 1, -x 0 - x 2, (2) * x 1 + 1, ?_, ?_, ?_, ?_, ?_, ?_⟩
    · linarith
    · linarith
    · linarith
    · linarith
    · ring
    · intro i
      fin_cases i <;> simp [faceDeltas, sideU] <;> ring

private theorem cover_pyr1no (x : Point 3 K) (h1 : x 0 ≤ -x 1) (h2 : -x 0 ≤ -x 1) (k1 : x 2 ≤ -x 1) (k2 : -x 2 ≤ -x 1) (h5 : -x 1 ≤ 1 / 2) :
    ∃ t ∈ pyrU 1 false false, InL t x := by
  rcases le_total (x 0) (x 2) with l1 | l1
  · refine ⟨_, List.mem_of_getElem? (i := 0) rfl, _, _, _, _, rfl,
      -x 0 + x 2, x 0 - x 1, -x 1 - x 2, (2) * x 1 + 1, ?_, ?_, ?_, ?_, ?_, ?_⟩
    · linarith
    · linarith
    · linarith
    · linarith
    · ring
    · intro i
      fin_cases i <;> simp [faceDeltas, sideU] <;> ring
  · refine ⟨_, List.mem_of_getElem? (i := 1) rfl, _, _, _, _, rfl,
      -x 1 + x 2, x 0 - x 2, -x 0 - x 1, (2) * x 1 + 1, ?_, ?_, ?_, ?_, ?_, ?_⟩
    · linarith
    · linarith
    · linarith
    · linarith
    · ring
    · intro i
      fin_cases i <;> simp [faceDeltas, sideU] <;> ring

private theorem cover_pyr2pe (x : Point 3 K) (h1 : x 0 ≤ x 2) (h2 : -x 0 ≤ x 2) (k1 : x 1 ≤ x 2) (k2 : -x 1 ≤ x 2) (h5 : x 2 ≤ 1 / 2) :
    ∃ t ∈ pyrU 2 true true, InL t x := by
  rcases le_total (-x 0) (x 1) with l1 | l1
  · refine ⟨_, List.mem_of_getElem? (i := 0) rfl, _, _, _, _, rfl,
      -x 0 + x 2, x 0 + x 1, -x 1 + x 2, (-2) * x 2 + 1, ?_, ?_, ?_, ?_, ?_, ?_⟩
    · linarith
    · linarith
    · linarith
    · linarith
    · ring
    · intro i
      fin_cases i <;> simp [faceDeltas, sideU] <;> ring
  · refine ⟨_, List.mem_of_getElem? (i := 1) rfl, _, _, _, _, rfl,
      x 1 + x 2, x 0 + x 2, -x 0 - x 1, (-2) * x 2 + 1, ?_, ?_, ?_, ?_, ?_, ?_⟩
    · linarith
    · linarith
    · linarith
    · linarith
    · ring
    · intro i
      fin_cases i <;> simp [faceDeltas, sideU] <;> ring

private theorem cover_pyr2po (x : Point 3 K) (h1 : x 0 ≤ x 2) (h2 : -x 0 ≤ x 2) (k1 : x 1 ≤ x 2) (k2 : -x 1 ≤ x 2) (h5 : x 2 ≤ 1 / 2) :
    ∃ t ∈ pyrU 2 true false, InL t x := by
  rcases le_total (x 0) (x 1) with l1 | l1
  · refine ⟨_, List.mem_of_getElem? (i := 0) rfl, _, _, _, _, rfl,
      -x 0 + x 1, x 0 + x 2, -x 1 + x 2, (-2) * x 2 + 1, ?_, ?_, ?_, ?_, ?_, ?_⟩
    · linarith
    · linarith
    · linarith
    · linarith
    · ring
    · intro i
      fin_cases i <;> simp [faceDeltas, sideU] <;> ring
  · refine ⟨_, List.mem_of_getElem? (i := 1) rfl, _, _, _, _, rfl,
      x 1 + x 2, x 0 - x 1, -x 0 + x 2, (-2) * x 2 + 1, ?_, ?_, ?_, ?_, ?_, ?_⟩
    · linarith
    · linarith
    · linarith
    · linarith
    · ring
    · intro i
      fin_cases i <;> simp [faceDeltas, sideU] <;> ring

private theorem cover_pyr2ne (x : Point 3 K) (h1 : x 0 ≤ -x 2) (h2 : -x 0 ≤ -x 2) (k1 : x 1 ≤ -x 2) (k2 : -x 1 ≤ -x 2) (h5 : -x 2 ≤ 1 / 2) :
    ∃ t ∈ pyrU 2 false true, InL t x := by
  rcases le_total (x 0) (x 1) with l1 | l1
  · refine ⟨_, List.mem_of_getElem? (i := 1) rfl, _, _, _, _, rfl,
      -x 1 - x 2, x 0 - x 2, -x 0 + x 1, (2) * x 2 + 1, ?_, ?_, ?_, ?_, ?_, ?_⟩
    · linarith
    · linarith
    · linarith
    · linarith
    · ring
    · intro i
      fin_cases i <;> simp [faceDeltas, sideU] <;> ring
  · refine ⟨_, List.mem_of_getElem? (i := 0) rfl, _, _, _, _, rfl,
      -x 0 - x 2, x 0 - x 1, x 1 - x 2, (2) * x 2 + 1, ?_, ?_, ?_, ?_, ?_, ?_⟩
    · linarith
    · linarith
    · linarith
    · linarith
    · ring
    · intro i
      fin_cases i <;> simp [faceDeltas, sideU] <;> ring

private theorem cover_pyr2no (x : Point 3 K) (h1 : x 0 ≤ -x 2) (h2 : -x 0 ≤ -x 2) (k1 : x 1 ≤ -x 2) (k2 : -x 1 ≤ -x 2) (h5 : -x 2 ≤ 1 / 2) :
    ∃ t ∈ pyrU 2 false false, InL t x := by
  rcases le_total (-x 0) (x 1) with l1 | l1
  · refine ⟨_, List.mem_of_getElem? (i := 1) rfl, _, _, _, _, rfl,
      -x 1 - x 2, x 0 + x 1, -x 0 - x 2, (2) * x 2 + 1, ?_, ?_, ?_, ?_, ?_, ?_⟩
    · linarith
    · linarith
    · linarith
    · linarith
    · ring
    · intro i
      fin_cases i <;> simp [faceDeltas, sideU] <;> ring
  · refine ⟨_, List.mem_of_getElem? (i := 0) rfl, _, _, _, _, rfl,
      -x 0 - x 1, x 0 - x 2, x 1 - x 2, (2) * x 2 + 1, ?_, ?_, ?_, ?_, ?_, ?_⟩
    · linarith
    · linarith
    · linarith
    · linarith
    · ring
    · intro i
      fin_cases i <;> simp [faceDeltas, sideU] <;> ring


/-- The tetrahedra between two centres cover the points that are nearest to the common side. -/
theorem cover_conn (axis : Fin 3) (x : Point 3 K)
    (h : ∀ b, b ≠ axis → x b ≤ x axis ∧ -x b ≤ x axis ∧ x b ≤ 1 - x axis ∧ -x b ≤ 1 - x axis) : ∃ t ∈ connU axis, InL t x := by
  fin_cases axis
  · obtain ⟨h1, h2, h3, h4⟩ := h 1 (by decide)
    obtain ⟨k1, k2, k3, k4⟩ := h 2 (by decide)
    exact cover_conn0 x h1 h2 h3 h4 k1 k2 k3 k4
  · obtain ⟨h1, h2, h3, h4⟩ := h 0 (by decide)
    obtain ⟨k1, k2, k3, k4⟩ := h 2 (by decide)
    exact cover_conn1 x h1 h2 h3 h4 k1 k2 k3 k4
  · obtain ⟨h1, h2, h3, h4⟩ := h 0 (by decide)
    obtain ⟨k1, k2, k3, k4⟩ := h 1 (by decide)
    exact cover_conn2 x h1 h2 h3 h4 k1 k2 k3 k4

/-- The tetrahedra of a pyramid cover the points of the cell that are nearest to its side. -/
theorem cover_pos (axis : Fin 3) (even : Bool) (x : Point 3 K) (h5 : x axis ≤ 1 / 2)
    (h : ∀ b, b ≠ axis → x b ≤ x axis ∧ -x b ≤ x axis) : ∃ t ∈ pyrU axis true even, InL t x := by
  fin_cases axis
  · obtain ⟨h1, h2⟩ := h 1 (by decide)
    obtain ⟨k1, k2⟩ := h 2 (by decide)
    cases even
    · exact cover_pyr0po x h1 h2 k1 k2 h5
    · exact cover_pyr0pe x h1 h2 k1 k2 h5
  · obtain ⟨h1, h2⟩ := h 0 (by decide)
    obtain ⟨k1, k2⟩ := h 2 (by decide)
    cases even
    · exact cover_pyr1po x h1 h2 k1 k2 h5
    · exact cover_pyr1pe x h1 h2 k1 k2 h5
  · obtain ⟨h1, h2⟩ := h 0 (by decide)
    obtain ⟨k1, k2⟩ := h 1 (by decide)
    cases even
    · exact cover_pyr2po x h1 h2 k1 k2 h5
    · exact cover_pyr2pe x h1 h2 k1 k2 h5

theorem cover_neg (axis : Fin 3) (even : Bool) (x : Point 3 K) (h5 : -x axis ≤ 1 / 2)
    (h : ∀ b, b ≠ axis → x b ≤ -x axis ∧ -x b ≤ -x axis) : ∃ t ∈ pyrU axis false even, InL t x := by
  fin_cases axis
  · obtain ⟨h1, h2⟩ := h 1 (by decide)
    obtain ⟨k1, k2⟩ := h 2 (by decide)
    cases even
    · exact cover_pyr0no x h1 h2 k1 k2 h5
    · exact cover_pyr0ne x h1 h2 k1 k2 h5
  · obtain ⟨h1, h2⟩ := h 0 (by decide)
    obtain ⟨k1, k2⟩ := h 2 (by decide)
    cases even
    · exact cover_pyr1no x h1 h2 k1 k2 h5
    · exact cover_pyr1ne x h1 h2 k1 k2 h5
  · obtain ⟨h1, h2⟩ := h 0 (by decide)
    obtain ⟨k1, k2⟩ := h 1 (by decide)
    cases even
    · exact cover_pyr2no x h1 h2 k1 k2 h5
    · exact cover_pyr2ne x h1 h2 k1 k2 h5

/-! ### Volumes -/

/-- Six times the signed volume of the tetrahedron with the given list of vertices. -/
def vol6L (t : List (Point 3 K)) : K := Surface.Spec.tetVol6 (t.getD 0 0) (t.getD 1 0) (t.getD 2 0) (t.getD 3 0)

theorem vol6_place (h : K) (cell : Idx) (a b c d : Point 3 K) :
    Surface.Spec.tetVol6 (place h cell a) (place h cell b) (place h cell c) (place h cell d) = h ^ 3 * Surface.Spec.tetVol6 a b c d := by
  simp only [Surface.Spec.tetVol6, Surface.Spec.det3, place]
  ring

theorem vol6_conn (axis : Fin 3) : ∀ t ∈ connU (K := K) axis, vol6L t = 1 / 2 := by
  intro t ht
  simp only [connU, List.mem_cons, List.not_mem_nil, or_false] at ht
  rcases ht with rfl | rfl | rfl | rfl <;> fin_cases axis <;>
    simp [vol6L, Surface.Spec.tetVol6, Surface.Spec.det3, faceDeltas, axisDelta] <;> norm_num

theorem vol6_pyr (axis : Fin 3) (b even : Bool) : ∀ t ∈ pyrU (K := K) axis b even, vol6L t = 1 / 2 := by
  intro t ht
  cases even <;> simp only [pyrU, if_true, if_false, Bool.false_eq_true, List.mem_cons, List.not_mem_nil, or_false] at ht <;>
    rcases ht with rfl | rfl <;> fin_cases axis <;> cases b <;>
    simp [vol6L, Surface.Spec.tetVol6, Surface.Spec.det3, faceDeltas, sideU] <;> norm_num

end TetGrid
end Fenris
