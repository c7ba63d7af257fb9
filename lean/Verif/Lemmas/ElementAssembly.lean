import Mathlib.Algebra.BigOperators.Fin
import Mathlib.Tactic.Ring
import Mathlib.Tactic.Linarith
import Verif.Spec.ElementAssembly
/-! # Lemmas about the element assemblers -/
set_option autoImplicit false
set_option linter.unusedSectionVars false

namespace Fenris
namespace Local

variable {K : Type} [Field K] [LinearOrder K] {d s : Nat} {Param : Type}

theorem tryInverse_eq (j : Matrix (Fin d) (Fin d) K) (h : j.det ≠ 0) : tryInverse j = some j⁻¹ := by
  unfold tryInverse
  rw [if_neg h, Matrix.inv_def, Ring.inverse_eq_inv']

theorem tryInverse_none (j : Matrix (Fin d) (Fin d) K) : tryInverse j = none ↔ j.det = 0 := by
  unfold tryInverse
  split <;> simp_all

theorem block_index {s I I' i : Nat} (hi : i < s) : (s * I' ≤ s * I + i ∧ s * I + i < s * I' + s) ↔ I' = I := by
  constructor
  · rintro ⟨h1, h2⟩
    by_contra hne
    rcases Nat.lt_or_gt_of_ne hne with h | h
    · have := Nat.mul_le_mul_left s (Nat.succ_le_of_lt h); rw [Nat.mul_succ] at this; omega
    · have := Nat.mul_le_mul_left s (Nat.succ_le_of_lt h); rw [Nat.mul_succ] at this; omega
  · rintro rfl; omega

theorem addBlock_entry (out : Mat K) (I' J' I J : Nat) (i j : Fin s) (B : Matrix (Fin s) (Fin s) K) :
    addBlock out (s * I') (s * J') B (s * I + i) (s * J + j) =
      out (s * I + i) (s * J + j) + if I' = I ∧ J' = J then B i j else 0 := by
  unfold addBlock
  by_cases h : I' = I ∧ J' = J
  · obtain ⟨rfl, rfl⟩ := h
    rw [dif_pos ⟨⟨by omega, by omega⟩, ⟨by omega, by omega⟩⟩, if_pos ⟨rfl, rfl⟩]
    congr 2
    · apply Fin.ext; simp
    · apply Fin.ext; simp
  · rw [dif_neg, if_neg h, add_zero]
    rw [block_index i.2, block_index j.2]
    exact h

theorem addRows_entry (out : Nat → K) (I' I : Nat) (i : Fin s) (B : Fin s → K) :
    addRows out (s * I') B (s * I + i) = out (s * I + i) + if I' = I then B i else 0 := by
  unfold addRows
  by_cases h : I' = I
  · subst h
    rw [dif_pos ⟨by omega, by omega⟩, if_pos rfl]
    congr 2
    apply Fin.ext; simp
  · rw [dif_neg, if_neg h, add_zero]
    rw [block_index i.2]
    exact h

/-- Sum over an indexed list that picks one position. -/
theorem zipIdx_pick {α : Type} (l : List α) (f : α → K) (c : Nat → Prop) [DecidablePred c] (k I : Nat)
    (x : α) (hx : l[I]? = some x) :
    ((l.zipIdx k).map fun p => if p.2 = k + I ∧ c p.2 then f p.1 else 0).sum = if c (k + I) then f x else 0 := by
  induction l generalizing k I with
  | nil => simp at hx
  | cons y l ih =>
    rw [List.zipIdx_cons, List.map_cons, List.sum_cons]
    cases I with
    | zero =>
      simp at hx
      subst hx
      have : ((l.zipIdx (k + 1)).map fun p => if p.2 = k + 0 ∧ c p.2 then f p.1 else 0) =
          (l.zipIdx (k + 1)).map fun _ => (0 : K) := by
        apply List.map_congr_left
        intro p hp
        have := List.le_snd_of_mem_zipIdx hp
        rw [if_neg]
        omega
      rw [this]
      simp
    | succ I =>
      have := ih (k + 1) I (by simpa using hx)
      rw [show k + 1 + I = k + (I + 1) by omega] at this
      rw [this, if_neg (by simp), zero_add]

theorem foldl_addRows {α : Type} (l : List (α × Nat)) (g : α → Fin s → K) (out : Nat → K) (I : Nat) (i : Fin s) :
    l.foldl (fun out a => addRows out (s * a.2) (g a.1)) out (s * I + i) =
      out (s * I + i) + (l.map fun a => if a.2 = I then g a.1 i else 0).sum := by
  induction l generalizing out with
  | nil => simp
  | cons a l ih => rw [List.foldl_cons, ih, addRows_entry, List.map_cons, List.sum_cons, add_assoc]

theorem foldl_addRows_pick {α : Type} (l : List α) (g : α → Fin s → K) (out : Nat → K) (I : Nat) (i : Fin s)
    (x : α) (hx : l[I]? = some x) :
    l.zipIdx.foldl (fun out a => addRows out (s * a.2) (g a.1)) out (s * I + i) = out (s * I + i) + g x i := by
  rw [foldl_addRows]
  have := zipIdx_pick (K := K) l (fun a => g a i) (fun _ => True) 0 I x hx
  simp only [Nat.zero_add, and_true, if_true] at this
  rw [this]

theorem foldl_addBlock {α : Type} (l : List (α × Nat)) (B : α → Matrix (Fin s) (Fin s) K) (J' : Nat)
    (out : Mat K) (I J : Nat) (i j : Fin s) :
    l.foldl (fun out a => addBlock out (s * a.2) (s * J') (B a.1)) out (s * I + i) (s * J + j) =
      out (s * I + i) (s * J + j) + (l.map fun a => if a.2 = I ∧ J' = J then B a.1 i j else 0).sum := by
  induction l generalizing out with
  | nil => simp
  | cons a l ih => rw [List.foldl_cons, ih, addBlock_entry, List.map_cons, List.sum_cons, add_assoc]

theorem foldl_entry_add {α : Type} (l : List α) (F : Mat K → α → Mat K) (v : α → K) (r c : Nat)
    (h : ∀ out a, a ∈ l → F out a r c = out r c + v a) (out : Mat K) :
    l.foldl F out r c = out r c + (l.map v).sum := by
  induction l generalizing out with
  | nil => simp
  | cons a l ih =>
    rw [List.foldl_cons, ih (fun out a ha => h out a (List.mem_cons_of_mem _ ha)),
      h out a (List.mem_cons_self ..), List.map_cons, List.sum_cons, add_assoc]

/-- What one batch of contractions adds to the entry of a block. -/
theorem accumulateContractions_entry (o : Operator d s K Param) (out : Mat K) (alpha : K)
    (G : Matrix (Fin d) (Fin s) K) (a b : List (Point d K)) (param : Param) (I J : Nat) (i j : Fin s)
    (aI bJ : Point d K) (ha : a[I]? = some aI) (hb : b[J]? = some bJ) :
    accumulateContractions o out alpha G a b param (s * I + i) (s * J + j) =
      out (s * I + i) (s * J + j) +
        if o.symmetric = true → I ≤ J then alpha * o.contract G aI bJ param i j else 0 := by
  unfold accumulateContractions
  rw [foldl_entry_add b.zipIdx _ (fun bJ' => if bJ'.2 = 0 + J ∧ (o.symmetric = true → I ≤ bJ'.2) then
    alpha * o.contract G aI bJ'.1 param i j else 0)]
  · rw [zipIdx_pick (K := K) b (fun bJ' => alpha * o.contract G aI bJ' param i j)
      (fun J' => o.symmetric = true → I ≤ J') 0 J bJ hb]
    simp only [Nat.zero_add]
  · intro out bJ' _
    refine (foldl_addBlock _ (fun a => alpha • o.contract G a bJ'.1 param) bJ'.2 out I J i j).trans ?_
    congr 1
    rw [Nat.zero_add]
    have hIlen : I < a.length := by
      by_contra hc
      rw [List.getElem?_eq_none (by omega)] at ha; cases ha
    by_cases hJ : bJ'.2 = J
    · simp only [hJ, and_true, true_and]
      by_cases hr : o.symmetric = true → I ≤ J
      · rw [if_pos hr]
        have hx : (a.take (if o.symmetric = true then min (J + 1) a.length else a.length))[I]? = some aI := by
          rw [List.getElem?_take, if_pos, ha]
          split
          · rename_i hs; have := hr hs; omega
          · exact hIlen
        have := zipIdx_pick (K := K) _ (fun a => (alpha • o.contract G a bJ'.1 param) i j) (fun _ => True) 0 I aI hx
        simp only [Nat.zero_add, and_true, if_true] at this
        rw [this]
        simp
      · rw [if_neg hr]
        rw [show (List.map _ _ : List K) = List.map (fun _ => (0 : K))
          (a.take (if o.symmetric = true then min (J + 1) a.length else a.length)).zipIdx from ?_]
        · simp
        · apply List.map_congr_left
          intro p hp
          rw [if_neg]
          push Not at hr
          have := List.snd_lt_of_mem_zipIdx hp
          rw [if_pos hr.1] at this
          simp at this
          omega
    · simp [hJ]

/-- Pairs written by `clone_upper_to_lower`. -/
theorem foldl_setAt (L : List (Nat × Nat)) (hL : ∀ p ∈ L, p.2 < p.1) (m : Mat K) (r c : Nat) :
    L.foldl (fun m p => setAt m p.1 p.2 (m p.2 p.1)) m r c = if (r, c) ∈ L then m c r else m r c := by
  induction L generalizing m with
  | nil => simp
  | cons p L ih =>
    have hL' : ∀ q ∈ L, q.2 < q.1 := fun q hq => hL q (List.mem_cons_of_mem _ hq)
    have hp := hL p (List.mem_cons_self ..)
    rw [List.foldl_cons, ih hL']
    by_cases h1 : (r, c) ∈ L
    · rw [if_pos h1, if_pos (List.mem_cons_of_mem _ h1)]
      have := hL' _ h1
      unfold setAt
      rw [if_neg]
      intro h; simp only at this; omega
    · rw [if_neg h1]
      by_cases h2 : (r, c) = p
      · subst h2
        rw [if_pos (List.mem_cons_self ..)]
        simp [setAt]
      · rw [if_neg (by simp [h1, h2])]
        unfold setAt
        rw [if_neg]
        rintro ⟨rfl, rfl⟩; exact h2 rfl

theorem foldl_foldl_flatMap {α β γ : Type} (l : List α) (g : α → List β) (f : γ → α × β → γ) (x : γ) :
    l.foldl (fun x a => (g a).foldl (fun x b => f x (a, b)) x) x =
      (l.flatMap fun a => (g a).map fun b => (a, b)).foldl f x := by
  induction l generalizing x with
  | nil => rfl
  | cons a l ih => rw [List.foldl_cons, ih, List.flatMap_cons, List.foldl_append, List.foldl_map]

/-- `clone_upper_to_lower`: the strict lower triangle takes the mirrored values, the rest is kept. -/
theorem cloneUpperToLower_entry (n : Nat) (m : Mat K) (r c : Nat) (hr : r < n) (_hc : c < n) :
    cloneUpperToLower n m r c = if c < r then m c r else m r c := by
  unfold cloneUpperToLower
  rw [foldl_foldl_flatMap (List.range n) (fun j => List.range' (j + 1) (n - (j + 1)))
    (fun (m : Mat K) (p : Nat × Nat) => setAt m p.2 p.1 (m p.1 p.2))]
  have hsw : ∀ (L : List (Nat × Nat)) (m : Mat K),
      L.foldl (fun (m : Mat K) (p : Nat × Nat) => setAt m p.2 p.1 (m p.1 p.2)) m =
      (L.map Prod.swap).foldl (fun m p => setAt m p.1 p.2 (m p.2 p.1)) m := by
    intro L m; rw [List.foldl_map]; rfl
  rw [hsw, foldl_setAt]
  · have : (r, c) ∈ (((List.range n).flatMap fun j =>
        (List.range' (j + 1) (n - (j + 1))).map fun i => (j, i)).map Prod.swap) ↔ c < r := by
      simp only [List.mem_map, List.mem_flatMap, List.mem_range, List.mem_range'_1, Prod.exists,
        Prod.swap_prod_mk, Prod.mk.injEq]
      constructor
      · rintro ⟨a, b, ⟨j, hj, i, hi, rfl, rfl⟩, rfl, rfl⟩; omega
      · intro h; exact ⟨c, r, ⟨c, by omega, r, by omega, rfl, rfl⟩, rfl, rfl⟩
    simp only [this]
  · intro p hp
    simp only [List.mem_map, List.mem_flatMap, List.mem_range, List.mem_range'_1, Prod.exists,
      Prod.swap_prod_mk] at hp
    obtain ⟨a, b, ⟨j, hj, i, hi, h⟩, rfl⟩ := hp
    cases h
    simp only
    omega

/-- The loop's gradient of `u` is the specified one. -/
theorem volumeUGrad_eq (J : Matrix (Fin d) (Fin d) K) (grads : List (Point d K)) (u : List K) :
    volumeUGrad J⁻¹.transpose grads u = Spec.gradU s J grads u := by
  have hfold : ∀ (l : List (Point d K × Nat)) (acc : Matrix (Fin d) (Fin s) K) (k : Fin d) (i : Fin s),
      l.foldl (fun acc gI => acc + Matrix.vecMulVec gI.1 (column s u gI.2)) acc k i =
        acc k i + (l.map fun gI => gI.1 k * u.getD (s * gI.2 + i) 0).sum := by
    intro l
    induction l with
    | nil => intro acc k i; simp
    | cons a l ih =>
      intro acc k i
      rw [List.foldl_cons, ih, List.map_cons, List.sum_cons]
      simp only [Matrix.add_apply, Matrix.vecMulVec_apply, column]
      ring
  have hz : ∀ (l : List (Point d K)) (f : Point d K → Nat → K),
      (l.zipIdx.map fun gI => f gI.1 gI.2).sum = ∑ I : Fin l.length, f l[I] I := by
    intro l f
    rw [← List.sum_ofFn]
    congr 1
    apply List.ext_getElem
    · simp
    · intro n h1 h2; simp
  ext k i
  unfold volumeUGrad Spec.gradU Spec.physGrad
  rw [Matrix.mul_apply]
  simp only [hfold, Matrix.zero_apply, zero_add, Matrix.transpose_apply]
  simp only [Finset.sum_mul]
  rw [Finset.sum_comm]
  apply Finset.sum_congr rfl
  intro m _
  rw [hz grads (fun g I => g m * u.getD (s * I + i) 0), Finset.mul_sum]
  apply Finset.sum_congr rfl
  intro I _
  ring

theorem physGrad_eq (J : Matrix (Fin d) (Fin d) K) (g : Point d K) :
    J⁻¹.transpose.mulVec g = Spec.physGrad J g := by
  ext k
  simp [Spec.physGrad, Matrix.mulVec, dotProduct, Matrix.transpose_apply]

theorem zip_maps {α β γ : Type} (l : List (α × β × γ)) :
    (l.map (·.1)).zip ((l.map (·.2.1)).zip (l.map (·.2.2))) = l := by
  induction l with
  | nil => rfl
  | cons a l ih => simp [ih]

end Local
end Fenris
