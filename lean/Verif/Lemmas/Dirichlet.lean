import Verif.Model.Dirichlet
import Verif.Lemmas.Assembly
import Mathlib.Tactic.Linarith
/-! # Lemmas for Dirichlet conditions -/
set_option autoImplicit false
set_option linter.unusedSectionVars false

namespace Fenris
namespace Assembly
open Spec

variable {K : Type} [Field K] [LinearOrder K] [IsStrictOrderedRing K]

theorem csrScale_pos (rows : List (List Nat × List K)) : 0 < csrScale rows := by
  unfold csrScale
  cases h : (diagonalValues rows).dropWhile (fun x => x == 0) with
  | nil => exact one_pos
  | cons x l =>
    have : (x == 0) = false := by
      have := List.head?_dropWhile_not (fun x : K => x == 0) (diagonalValues rows)
      rw [h] at this
      simpa using this
    exact abs_pos.2 (by simpa using this)

theorem mem_dirichletDofs (d : Nat) (nodes : List Nat) (r : Nat) :
    r ∈ dirichletDofs d nodes ↔ ∃ n ∈ nodes, ∃ i, i < d ∧ r = d * n + i := by
  simp only [dirichletDofs, List.mem_flatMap, List.mem_map, List.mem_range]
  constructor
  · rintro ⟨n, hn, i, hi, rfl⟩; exact ⟨n, hn, i, hi, rfl⟩
  · rintro ⟨n, hn, i, hi, rfl⟩; exact ⟨n, hn, i, hi, rfl⟩

theorem rowEntry_map (cols : List Nat) (vals : List K) (hl : vals.length = cols.length)
    (g : Nat → K → K) (c : Nat) :
    rowEntry (cols, (cols.zip vals).map (fun p => g p.1 p.2)) c =
      if c ∈ cols then g c (rowEntry (cols, vals) c) else 0 := by
  induction cols generalizing vals with
  | nil => simp [rowEntry]
  | cons x cols ih =>
    cases vals with
    | nil => simp at hl
    | cons v vals =>
      have ih := ih vals (by simpa using hl)
      by_cases hx : x = c
      · subst hx; simp [rowEntry]
      · have h1 : rowEntry (x :: cols, ((x :: cols).zip (v :: vals)).map (fun p => g p.1 p.2)) c =
            rowEntry (cols, (cols.zip vals).map (fun p => g p.1 p.2)) c := by
          simp [rowEntry, hx]
        have h2 : rowEntry (x :: cols, v :: vals) c = rowEntry (cols, vals) c := by
          simp [rowEntry, hx]
        rw [h1, h2, ih]
        simp [Ne.symm hx]

theorem markVisits_spec (r N : Nat) (cols : List Nat) (hc : ∀ c ∈ cols, c < N) :
    ∀ visit : List Bool, N ≤ visit.length → ∃ v', markVisits r cols visit = some v' ∧
      v'.length = visit.length ∧
      ∀ c, v'[c]? = some true ↔ (visit[c]? = some true ∨ (c ∈ cols ∧ c ≠ r)) := by
  induction cols with
  | nil => intro visit _; exact ⟨visit, rfl, rfl, by simp⟩
  | cons x cols ih =>
    intro visit hN
    have hx := hc x (by simp)
    have ih := ih (fun c h => hc c (by simp [h]))
    by_cases hxr : x = r
    · obtain ⟨v', h1, h2, h3⟩ := ih visit hN
      refine ⟨v', ?_, h2, ?_⟩
      · unfold markVisits at h1 ⊢
        rw [List.foldlM_cons, if_pos hxr]; exact h1
      · intro c
        rw [h3]
        constructor
        · rintro (h | ⟨h, h'⟩)
          · exact .inl h
          · exact .inr ⟨by simp [h], h'⟩
        · rintro (h | ⟨h, h'⟩)
          · exact .inl h
          · rcases List.mem_cons.1 h with rfl | h
            · exact absurd hxr h'
            · exact .inr ⟨h, h'⟩
    · obtain ⟨v', h1, h2, h3⟩ := ih (visit.set x true) (by simpa using hN)
      refine ⟨v', ?_, by simpa using h2, ?_⟩
      · unfold markVisits at h1 ⊢
        rw [List.foldlM_cons, if_neg hxr, if_pos (by omega)]; exact h1
      · intro c
        rw [h3]
        by_cases hcx : x = c
        · subst hcx
          rw [List.getElem?_set_self (by omega)]
          simp [hxr]
        · rw [List.getElem?_set_ne hcx]
          simp [Ne.symm hcx]

/-- What the first loop does to a row. -/
def rowOne (scale : K) (r : Nat) (row : List Nat × List K) : List Nat × List K :=
  (row.1, (row.1.zip row.2).map (fun p => if p.1 = r then scale else 0))

/-- Invariant of the first loop after the dofs `P`. -/
structure DirInv (rows0 : List (List Nat × List K)) (L : Nat) (scale : K) (P : List Nat)
    (st : DirState K) : Prop where
  member_len : st.member.length = L
  visit_len : st.visit.length = L
  rows : ∀ r, st.rows[r]? = (rows0[r]?).map (fun row => if r ∈ P then rowOne scale r row else row)
  member : ∀ r, r < L → st.member[r]? = some (decide (r ∈ P))
  visit : ∀ c, st.visit[c]? = some true ↔
    ∃ r ∈ P, ∃ row, rows0[r]? = some row ∧ c ∈ row.1 ∧ c ≠ r

theorem rowOne_idem (scale : K) (r : Nat) (row : List Nat × List K)
    (h : row.2.length = row.1.length) : rowOne scale r (rowOne scale r row) = rowOne scale r row := by
  obtain ⟨cols, vals⟩ := row
  simp only [rowOne, Prod.mk.injEq, true_and]
  simp only at h
  induction cols generalizing vals with
  | nil => simp
  | cons c cols ih =>
    cases vals with
    | nil => simp at h
    | cons v vals => simp only [List.zip_cons_cons, List.map_cons]; rw [ih vals (by simpa using h)]

theorem dirichletRow_inv (rows0 : List (List Nat × List K)) (L : Nat) (scale : K) (P : List Nat)
    (hL : rows0.length ≤ L)
    (hrows : ∀ row ∈ rows0, row.2.length = row.1.length ∧ ∀ c ∈ row.1, c < rows0.length)
    (st : DirState K) (h : DirInv rows0 L scale P st) (r : Nat) (hr : r < rows0.length) :
    ∃ st', dirichletRow scale st r = some st' ∧ DirInv rows0 L scale (P ++ [r]) st' := by
  have hget := List.getElem?_eq_getElem hr
  have hrow := hrows _ (List.getElem_mem hr)
  have hcur : st.rows[r]? = some (if r ∈ P then rowOne scale r rows0[r] else rows0[r]) := by
    rw [h.rows, hget]; rfl
  have hcols : (if r ∈ P then rowOne scale r rows0[r] else rows0[r]).1 = rows0[r].1 := by
    split <;> rfl
  have hone : rowOne scale r (if r ∈ P then rowOne scale r rows0[r] else rows0[r]) =
      rowOne scale r rows0[r] := by
    split
    · exact rowOne_idem scale r _ hrow.1
    · rfl
  obtain ⟨v', h1, h2, h3⟩ := markVisits_spec r rows0.length rows0[r].1 hrow.2 st.visit
    (by rw [h.visit_len]; exact hL)
  have hrl : r < st.rows.length := by
    by_contra hcon; rw [List.getElem?_eq_none (by omega)] at hcur; cases hcur
  refine ⟨⟨st.rows.set r (rowOne scale r rows0[r]), st.member.set r true, v'⟩, ?_, ?_⟩
  · unfold dirichletRow
    rw [if_pos (by rw [h.member_len]; omega), hcur]
    generalize (if r ∈ P then rowOne scale r rows0[r] else rows0[r]) = cur at *
    rw [← hone, rowOne]
    simp only [hcols, h1]
  · refine ⟨by simpa using h.member_len, by rw [h2, h.visit_len], ?_, ?_, ?_⟩
    · intro q
      by_cases hq : r = q
      · subst hq
        rw [List.getElem?_set_self hrl, hget]
        simp
      · rw [List.getElem?_set_ne hq, h.rows]
        simp [Ne.symm hq]
    · intro q hq
      by_cases hqr : r = q
      · subst hqr
        rw [List.getElem?_set_self (by rw [h.member_len]; exact hq)]
        simp
      · rw [List.getElem?_set_ne hqr, h.member q hq]
        simp [Ne.symm hqr]
    · intro c
      rw [h3, h.visit]
      constructor
      · rintro (⟨q, hq, row, a, b, d⟩ | ⟨a, b⟩)
        · exact ⟨q, by simp [hq], row, a, b, d⟩
        · exact ⟨r, by simp, rows0[r], hget, a, b⟩
      · rintro ⟨q, hq, row, a, b, d⟩
        rcases List.mem_append.1 hq with hq | hq
        · exact .inl ⟨q, hq, row, a, b, d⟩
        · have : q = r := by simpa using hq
          subst this
          rw [hget] at a
          cases a
          exact .inr ⟨b, d⟩

theorem firstLoop_inv (rows0 : List (List Nat × List K)) (L : Nat) (scale : K)
    (hL : rows0.length ≤ L)
    (hrows : ∀ row ∈ rows0, row.2.length = row.1.length ∧ ∀ c ∈ row.1, c < rows0.length) :
    ∀ (rs P : List Nat) (st : DirState K), DirInv rows0 L scale P st →
    (∀ r ∈ rs, r < rows0.length) →
    ∃ st', rs.foldlM (dirichletRow scale) st = some st' ∧ DirInv rows0 L scale (P ++ rs) st' := by
  intro rs
  induction rs with
  | nil => intro P st h _; exact ⟨st, rfl, by simpa using h⟩
  | cons r rs ih =>
    intro P st h hr
    obtain ⟨st1, h1, h2⟩ := dirichletRow_inv rows0 L scale P hL hrows st h r (hr r (by simp))
    obtain ⟨st2, h3, h4⟩ := ih (P ++ [r]) st1 h2 (fun r h => hr r (by simp [h]))
    refine ⟨st2, ?_, by simpa using h4⟩
    rw [List.foldlM_cons, h1]; exact h3

/-- What the second loop does to a row. -/
def rowTwo (P : List Nat) (row : List Nat × List K) : List Nat × List K :=
  (row.1, (row.1.zip row.2).map (fun p => if p.1 ∈ P then 0 else p.2))

theorem clearColumns_eq (member : List Bool) (P : List Nat) (row : List Nat × List K)
    (h : ∀ c ∈ row.1, member[c]? = some (decide (c ∈ P))) :
    clearColumns member row = some (rowTwo P row) := by
  obtain ⟨cols, vals⟩ := row
  unfold clearColumns rowTwo
  have key : ∀ l : List (Nat × K), (∀ p ∈ l, member[p.1]? = some (decide (p.1 ∈ P))) →
      l.mapM (clearEntry member) =
      some (l.map (fun p => if p.1 ∈ P then 0 else p.2)) := by
    intro l
    induction l with
    | nil => intro _; rfl
    | cons p l ih =>
      intro h
      rw [List.mapM_cons, clearEntry, h p (by simp), ih (fun q hq => h q (by simp [hq]))]
      simp
  rw [key _ (by
    rintro ⟨c, v⟩ hp
    exact h c (List.of_mem_zip hp).1)]
  rfl

theorem secondLoop (member : List Bool) (P : List Nat) (N : Nat) :
    ∀ (V : List Nat) (rows : List (List Nat × List K)), V.Nodup →
    rows.length = N →
    (∀ row ∈ rows, ∀ c ∈ row.1, member[c]? = some (decide (c ∈ P))) →
    (∀ r ∈ V, r < N ∧ member[r]? = some (decide (r ∈ P))) →
    ∃ rows', V.foldlM (visitRow member) rows = some rows' ∧
      ∀ r, rows'[r]? = (rows[r]?).map (fun row => if r ∈ V ∧ r ∉ P then rowTwo P row else row) := by
  intro V
  induction V with
  | nil => intro rows _ _ _ _; exact ⟨rows, rfl, by simp⟩
  | cons r V ih =>
    intro rows hV hN hm hr
    rw [List.nodup_cons] at hV
    obtain ⟨hrN, hrm⟩ := hr r (by simp)
    by_cases hP : r ∈ P
    · obtain ⟨rows', h1, h2⟩ := ih rows hV.2 hN hm (fun q h => hr q (by simp [h]))
      refine ⟨rows', ?_, ?_⟩
      · rw [List.foldlM_cons, visitRow, hrm]
        simp only [hP, decide_true]
        exact h1
      · intro q
        rw [h2]
        congr 1
        funext row
        by_cases hq : q = r
        · subst hq; simp [hP, hV.1]
        · simp [hq]
    · have hlt : r < rows.length := by omega
      have hget := List.getElem?_eq_getElem hlt
      have hcl := clearColumns_eq member P rows[r] (hm _ (List.getElem_mem hlt))
      obtain ⟨rows', h1, h2⟩ := ih (rows.set r (rowTwo P rows[r])) hV.2 (by simpa using hN) (by
        intro row hrow
        rcases List.mem_or_eq_of_mem_set hrow with h | rfl
        · exact hm row h
        · exact hm rows[r] (List.getElem_mem hlt)) (fun q h => hr q (by simp [h]))
      refine ⟨rows', ?_, ?_⟩
      · rw [List.foldlM_cons, visitRow, hrm]
        simp only [hP, decide_false, hget, hcl, Option.map_some]
        exact h1
      · intro q
        rw [h2]
        by_cases hq : r = q
        · subst hq
          rw [List.getElem?_set_self hlt, hget]
          simp [hP, hV.1]
        · rw [List.getElem?_set_ne hq]
          simp [Ne.symm hq]

/-- The first non-zero diagonal value. -/
theorem diagonal_first (rows : List (List Nat × List K)) : ∀ k,
    (∀ row ∈ rows, row.2.length = row.1.length ∧ row.1.Pairwise (fun a b => a < b)) →
    match ((rows.zipIdx k).flatMap (fun p => ((p.1.1.zip p.1.2).filter
        (fun q => q.1 == p.2)).map Prod.snd)).dropWhile (fun x => x == 0) with
    | [] => ∀ (i : Nat) (row : List Nat × List K), rows[i]? = some row → rowEntry row (k + i) = 0
    | x :: _ => ∃ (i : Nat) (row : List Nat × List K), rows[i]? = some row ∧
        x = rowEntry row (k + i) ∧ x ≠ 0 ∧
        ∀ (j : Nat) (row' : List Nat × List K), j < i → rows[j]? = some row' →
          rowEntry row' (k + j) = 0 := by
  induction rows with
  | nil => intro k _; simp
  | cons row rows ih =>
    intro k h
    have hrow := h row (by simp)
    have hone : ((row.1.zip row.2).filter (fun q => q.1 == k)).map Prod.snd = [rowEntry row k] ∨
        (((row.1.zip row.2).filter (fun q => q.1 == k)).map Prod.snd = [] ∧ rowEntry row k = 0) := by
      obtain ⟨cols, vals⟩ := row
      obtain ⟨hl, hp⟩ := hrow
      simp only at hl hp ⊢
      clear h ih
      induction cols generalizing vals with
      | nil => right; simp [rowEntry]
      | cons c cols ihc =>
        cases vals with
        | nil => simp at hl
        | cons v vals =>
          rw [List.pairwise_cons] at hp
          by_cases hc : c = k
          · left
            have : (cols.zip vals).filter (fun q => q.1 == k) = [] := by
              rw [List.filter_eq_nil_iff]
              rintro ⟨a, b⟩ hab
              have := hp.1 a (List.of_mem_zip hab).1
              simp; omega
            simp [hc, this, rowEntry]
          · have := ihc vals (by simpa using hl) hp.2
            have h2 : rowEntry (c :: cols, v :: vals) k = rowEntry (cols, vals) k := by
              simp [rowEntry, hc]
            rw [h2]
            simpa [hc] using this
    have ih := ih (k + 1) (fun r hr => h r (by simp [hr]))
    rw [List.zipIdx_cons, List.flatMap_cons]
    have lift0 : rowEntry row k = 0 →
        (match ((rows.zipIdx (k+1)).flatMap (fun p => ((p.1.1.zip p.1.2).filter
          (fun q => q.1 == p.2)).map Prod.snd)).dropWhile (fun x => x == 0) with
        | [] => ∀ (i : Nat) (row' : List Nat × List K), (row :: rows)[i]? = some row' →
            rowEntry row' (k + i) = 0
        | x :: _ => ∃ (i : Nat) (row' : List Nat × List K), (row :: rows)[i]? = some row' ∧
            x = rowEntry row' (k + i) ∧ x ≠ 0 ∧
            ∀ (j : Nat) (row'' : List Nat × List K), j < i → (row :: rows)[j]? = some row'' →
              rowEntry row'' (k + j) = 0) := by
      intro h0
      revert ih
      cases ((rows.zipIdx (k+1)).flatMap (fun p => ((p.1.1.zip p.1.2).filter
          (fun q => q.1 == p.2)).map Prod.snd)).dropWhile (fun x => x == 0) with
      | nil =>
        intro ih i row' hi
        cases i with
        | zero => simp only [List.getElem?_cons_zero, Option.some.injEq] at hi; subst hi; exact h0
        | succ i =>
          have := ih i row' (by simpa using hi)
          rwa [Nat.add_assoc, Nat.add_comm 1] at this
      | cons x l =>
        rintro ⟨i, row', h1, h2, h3, h4⟩
        refine ⟨i + 1, row', by simpa using h1, ?_, h3, ?_⟩
        · rw [h2, Nat.add_assoc, Nat.add_comm 1]
        · intro j row'' hj hr
          cases j with
          | zero => simp only [List.getElem?_cons_zero, Option.some.injEq] at hr; subst hr; exact h0
          | succ j =>
            have := h4 j row'' (by omega) (by simpa using hr)
            rwa [Nat.add_assoc, Nat.add_comm 1] at this
    rcases hone with h1 | ⟨h1, h0⟩
    · simp only [h1, List.singleton_append]
      by_cases h0 : rowEntry row k = 0
      · rw [List.dropWhile_cons_of_pos (by simp [h0])]
        exact lift0 h0
      · rw [List.dropWhile_cons_of_neg (by simp [h0])]
        exact ⟨0, row, rfl, rfl, h0, by simp⟩
    · simp only [h1, List.nil_append]
      exact lift0 h0

theorem foldl_abs_nonneg (l : List K) (acc : K) (h : 0 ≤ acc) (hl : ∀ x ∈ l, 0 ≤ x) :
    0 ≤ l.foldl (fun a b => a + b) acc ∧
      (∀ x ∈ l, x ≤ l.foldl (fun a b => a + b) acc) ∧ acc ≤ l.foldl (fun a b => a + b) acc := by
  induction l generalizing acc with
  | nil => exact ⟨h, by simp, le_refl _⟩
  | cons x l ih =>
    have hx := hl x (by simp)
    obtain ⟨h1, h2, h3⟩ := ih (acc + x) (by linarith) (fun y hy => hl y (by simp [hy]))
    refine ⟨h1, ?_, ?_⟩
    · intro y hy
      rcases List.mem_cons.1 hy with rfl | hy
      · simp only [List.foldl_cons]; linarith
      · exact h2 y hy
    · simp only [List.foldl_cons]; linarith

end Assembly
end Fenris
