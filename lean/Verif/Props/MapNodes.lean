import Verif.Model.Aggregate
import Verif.Props.Assembly
/-! # C68: assembly with renamed nodes -/
set_option autoImplicit false
set_option linter.unusedSectionVars false

namespace Fenris
namespace Assembly
open Spec

variable {K E : Type} [AddCommMonoid K]

theorem dof_eq {s a b i j : Nat} (hi : i < s) (hj : j < s) :
    s * a + i = s * b + j ↔ a = b ∧ i = j := by
  constructor
  · intro h
    have h1 : (s * a + i) / s = a := by
      rw [Nat.mul_add_div (by omega), Nat.div_eq_of_lt hi, Nat.add_zero]
    have h2 : (s * b + j) / s = b := by
      rw [Nat.mul_add_div (by omega), Nat.div_eq_of_lt hj, Nat.add_zero]
    have hab : a = b := by rw [← h1, ← h2, h]
    subst hab
    exact ⟨rfl, by omega⟩
  · rintro ⟨rfl, rfl⟩; rfl

theorem contribution_map (s : Nat) (nodes : List Nat) (f : Nat → Nat) (A : Nat → Nat → K)
    (r c r' c' : Nat)
    (h : ∀ n ∈ nodes, ∀ n' ∈ nodes, ∀ i j, i < s → j < s →
      ((s * f n + i = r ∧ s * f n' + j = c) ↔ (s * n + i = r' ∧ s * n' + j = c'))) :
    matrixContribution s (nodes.map f) A r c = matrixContribution s nodes A r' c' := by
  unfold matrixContribution
  have hl : (nodes.map f).length = nodes.length := by simp
  refine Fintype.sum_equiv (finCongr hl) _ _ (fun a => ?_)
  refine Finset.sum_congr rfl (fun i _ => ?_)
  refine Fintype.sum_equiv (finCongr hl) _ _ (fun b => ?_)
  refine Finset.sum_congr rfl (fun j _ => ?_)
  have ha : (nodes.map f)[a] = f (nodes[(finCongr hl) a]) := by simp
  have hb : (nodes.map f)[b] = f (nodes[(finCongr hl) b]) := by simp
  have := h (nodes[(finCongr hl) a]) (List.getElem_mem _) (nodes[(finCongr hl) b]) (List.getElem_mem _)
    i j i.2 j.2
  rw [ha, hb]
  simp only [this]
  rfl

private theorem contribution_zero (s : Nat) (nodes : List Nat) (A : Nat → Nat → K) (r c : Nat)
    (h : ∀ n ∈ nodes, ∀ n' ∈ nodes, ∀ i j, i < s → j < s → ¬ (s * n + i = r ∧ s * n' + j = c)) :
    matrixContribution s nodes A r c = 0 := by
  unfold matrixContribution
  refine Finset.sum_eq_zero (fun a _ => Finset.sum_eq_zero (fun i _ =>
    Finset.sum_eq_zero (fun b _ => Finset.sum_eq_zero (fun j _ => ?_))))
  exact if_neg (h _ (List.getElem_mem _) _ (List.getElem_mem _) i j i.2 j.2)

/-- Assembling with nodes renamed by an injective function into a larger node range puts every entry of the
original matrix at the renamed position, and all entries whose row or column is not a renamed degree of
freedom are zero. -/
theorem C68_renamed_assembly_relocates_entries (ord : List Nat → List Nat)
    (hord : ∀ l, (ord l).Perm l) (sortNodes : List (Nat × Nat) → List (Nat × Nat))
    (hsort : SortsNodes sortNodes) (c : Conn) (hdim : 0 < c.solutionDim) (hc : NodesInBounds c)
    (hnd : ∀ e ∈ c.elements, e.Nodup) (elemMat : Nat → Except E (Nat → Nat → K))
    (A : Nat → Nat → Nat → K) (hA : ∀ e, e < c.elements.length → elemMat e = .ok (A e))
    (N : Nat) (f : Nat → Nat) (hf : ∀ n, n < c.numNodes → f n < N)
    (hinj : ∀ n n', n < c.numNodes → n' < c.numNodes → f n = f n' → n = n') :
    ∃ m m', assemble ord sortNodes c elemMat = some (.ok m) ∧
      assemble ord sortNodes (mapElementNodes c N f) elemMat = some (.ok m') ∧
      m'.rows.length = c.solutionDim * N ∧ m'.ncols = c.solutionDim * N ∧
      (∀ n n' i j, n < c.numNodes → n' < c.numNodes → i < c.solutionDim → j < c.solutionDim →
        entry m' (c.solutionDim * f n + i) (c.solutionDim * f n' + j) =
          entry m (c.solutionDim * n + i) (c.solutionDim * n' + j)) ∧
      ∀ r col, (∀ n i, n < c.numNodes → i < c.solutionDim → r ≠ c.solutionDim * f n + i) ∨
        (∀ n i, n < c.numNodes → i < c.solutionDim → col ≠ c.solutionDim * f n + i) →
        entry m' r col = 0 := by
  obtain ⟨m, h1, _, _, _, _, h6⟩ := C21_assemble_is_sum_of_contributions ord hord sortNodes hsort c
    hdim hc hnd elemMat A hA
  have hl : (mapElementNodes c N f).elements.length = c.elements.length := by simp [mapElementNodes]
  obtain ⟨m', g1, _, g3, g4, _, g6⟩ := C21_assemble_is_sum_of_contributions ord hord sortNodes hsort
    (mapElementNodes c N f) hdim
    (by
      intro e he n hn
      obtain ⟨e0, he0, rfl⟩ := List.mem_map.1 he
      obtain ⟨n0, hn0, rfl⟩ := List.mem_map.1 hn
      exact hf n0 (hc e0 he0 n0 hn0))
    (by
      intro e he
      obtain ⟨e0, he0, rfl⟩ := List.mem_map.1 he
      exact List.Nodup.map_on (fun x hx y hy h => hinj x y (hc e0 he0 x hx) (hc e0 he0 y hy) h)
        (hnd e0 he0))
    elemMat A (fun e he => hA e (hl ▸ he))
  refine ⟨m, m', h1, g1, g3, g4, ?_, ?_⟩
  · intro n n' i j hn hn' hi hj
    rw [g6, h6]
    refine Fintype.sum_equiv (finCongr hl) _ _ (fun e => ?_)
    have he : (mapElementNodes c N f).elements[e] = (c.elements[(finCongr hl) e]).map f :=
      List.getElem_map (f := fun e : List Nat => e.map f) (l := c.elements) (i := e.1) (h := e.2)
    have hmem : c.elements[(finCongr hl) e] ∈ c.elements := List.getElem_mem _
    rw [he]
    refine contribution_map c.solutionDim _ f (A e) _ _ _ _ ?_
    intro a ha b hb i' j' hi' hj'
    have ha' := hc _ hmem a ha
    have hb' := hc _ hmem b hb
    rw [dof_eq hi' hi, dof_eq hj' hj, dof_eq hi' hi, dof_eq hj' hj]
    constructor
    · rintro ⟨⟨h1, h2⟩, h3, h4⟩
      exact ⟨⟨hinj _ _ ha' hn h1, h2⟩, hinj _ _ hb' hn' h3, h4⟩
    · rintro ⟨⟨rfl, h2⟩, rfl, h4⟩
      exact ⟨⟨rfl, h2⟩, rfl, h4⟩
  · intro r col h
    rw [g6]
    refine Finset.sum_eq_zero (fun e _ => ?_)
    apply contribution_zero
    intro x hx y hy i j hi hj hcon
    have hmem : (mapElementNodes c N f).elements[e] ∈ (mapElementNodes c N f).elements :=
      List.getElem_mem _
    obtain ⟨e0, he0, heq⟩ := List.mem_map.1 hmem
    rw [← heq] at hx hy
    obtain ⟨a, ha, rfl⟩ := List.mem_map.1 hx
    obtain ⟨b, hb, rfl⟩ := List.mem_map.1 hy
    rcases h with h | h
    · exact h a i (hc e0 he0 a ha) hi hcon.1.symm
    · exact h b j (hc e0 he0 b hb) hj hcon.2.symm

/-- Non-vacuity: two elements on three nodes, placed after two other nodes. -/
example : NodesInBounds ⟨2, 3, [[0, 1], [2, 1]]⟩ ∧
    (∀ e ∈ ([[0, 1], [2, 1]] : List (List Nat)), e.Nodup) ∧
    (∀ n, n < 3 → n + 2 < 5) ∧ (∀ n n' : Nat, n < 3 → n' < 3 → n + 2 = n' + 2 → n = n') ∧
    mapElementNodes ⟨2, 3, [[0, 1], [2, 1]]⟩ 5 (fun n => n + 2) = ⟨2, 5, [[2, 3], [4, 3]]⟩ := by
  refine ⟨?_, by decide, by omega, by omega, rfl⟩
  unfold NodesInBounds
  decide

end Assembly
end Fenris
