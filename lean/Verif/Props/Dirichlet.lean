import Verif.Spec.Dirichlet
import Verif.Lemmas.Dirichlet
import Verif.Props.Assembly
import Mathlib.Algebra.Order.Ring.Rat
import Mathlib.Algebra.Field.Rat
import Mathlib.Tactic.Linarith
import Mathlib.Tactic.Positivity
/-! # C25: homogeneous Dirichlet conditions -/
set_option autoImplicit false
set_option linter.unusedSectionVars false

namespace Fenris
namespace Assembly
open Spec

variable {K : Type} [Field K] [LinearOrder K] [IsStrictOrderedRing K]

private theorem mem_dofs (d : Nat) (nodes : List Nat) (r : Nat) :
    r ∈ dirichletDofs d nodes ↔ Constrained d nodes r := mem_dirichletDofs d nodes r

private theorem scale_spec (m : Csr K) (hwf : WellFormed m) : DiagonalScale m (csrScale m.rows) := by
  have h := diagonal_first m.rows 0 hwf
  unfold csrScale diagonalValues
  revert h
  cases (m.rows.zipIdx.flatMap (fun p => ((p.1.1.zip p.1.2).filter
    (fun q => q.1 == p.2)).map Prod.snd)).dropWhile (fun x => x == 0) with
  | nil =>
    intro h
    refine .inl ⟨rfl, fun r => ?_⟩
    unfold entry
    cases hr : m.rows[r]? with
    | none => rfl
    | some row => simpa using h r row hr
  | cons x l =>
    rintro ⟨i, row, h1, h2, h3, h4⟩
    rw [Nat.zero_add] at h2
    have he : entry m i i = x := by rw [entry, h1]; exact h2.symm
    refine .inr ⟨i, by rw [he]; exact h3, by rw [he], fun q hq => ?_⟩
    unfold entry
    cases hr : m.rows[q]? with
    | none => rfl
    | some row => simpa using h4 q row hq hr

open Classical in
/-- For every well-formed square sparse matrix with symmetric pattern and every set of existing nodes,
`apply_homogeneous_dirichlet_bc_csr` keeps the pattern, clears the rows and columns of the constrained
degrees of freedom, writes one positive number (the first non-zero diagonal magnitude, or 1) to those of
their diagonal entries which are stored, and changes nothing else. -/
theorem C25_csr_entries (m : Csr K) (nodes : List Nat) (d : Nat) (hwf : WellFormed m)
    (hsq : Square m) (hsym : SymmetricPattern m)
    (hin : ∀ r, Constrained d nodes r → r < m.rows.length) :
    ∃ m' s, dirichletCsr m nodes d = some m' ∧ SamePattern m m' ∧ 0 < s ∧ DiagonalScale m s ∧
      ∀ r c, entry m' r c =
        if Constrained d nodes r ∨ Constrained d nodes c then
          (if r = c ∧ Stored m r r then s else 0)
        else entry m r c := by
  rcases Nat.eq_zero_or_pos d with rfl | hd
  · refine ⟨m, csrScale m.rows, ?_, ⟨rfl, rfl⟩, csrScale_pos _, scale_spec m hwf, ?_⟩
    · have : dirichletDofs 0 nodes = [] := by simp [dirichletDofs]
      simp [dirichletCsr, this]
    · intro r c
      have h : ∀ r, ¬ Constrained 0 nodes r := by rintro r ⟨n, _, i, hi, _⟩; omega
      simp [h]
  set P := dirichletDofs d nodes with hP
  set s := csrScale m.rows with hs
  have hL : m.rows.length ≤ d * m.rows.length := Nat.le_mul_of_pos_left _ hd
  have hrows : ∀ row ∈ m.rows, row.2.length = row.1.length ∧ ∀ c ∈ row.1, c < m.rows.length := by
    intro row hrow
    refine ⟨(hwf row hrow).1, fun c hc => ?_⟩
    obtain ⟨i, hi⟩ := List.mem_iff_getElem?.1 hrow
    have := hsq.2 i c ⟨row, hi, hc⟩
    rw [hsq.1] at this; exact this
  obtain ⟨st, hst, hinv⟩ := firstLoop_inv m.rows (d * m.rows.length) s hL hrows P []
    ⟨m.rows, List.replicate (d * m.rows.length) false, List.replicate (d * m.rows.length) false⟩
    ⟨by simp, by simp, by intro r; simp, by intro r hr; simp [hr],
      by intro c; simp [List.getElem?_replicate]⟩
    (fun r hr => hin r ((mem_dofs d nodes r).1 hr))
  rw [List.nil_append] at hinv
  set V := (st.visit.zipIdx.filter (fun p => p.1)).map Prod.snd with hV
  have hVmem : ∀ c, c ∈ V ↔ st.visit[c]? = some true := by
    intro c
    simp only [hV, List.mem_map, List.mem_filter]
    constructor
    · rintro ⟨⟨b, i⟩, ⟨h1, h2⟩, rfl⟩
      rw [List.mk_mem_zipIdx_iff_getElem?] at h1
      simp only at h2; rw [h2] at h1; exact h1
    · intro h
      exact ⟨(true, c), ⟨List.mk_mem_zipIdx_iff_getElem?.2 h, rfl⟩, rfl⟩
  have hVnodup : V.Nodup := by
    have h1 : V.Sublist (st.visit.zipIdx.map Prod.snd) := (List.filter_sublist).map _
    have h2 : st.visit.zipIdx.map Prod.snd = List.range' 0 st.visit.length := by simp
    rw [h2] at h1
    exact h1.nodup List.nodup_range'
  have hstlen : st.rows.length = m.rows.length := by
    have h1 := hinv.rows m.rows.length
    rw [List.getElem?_eq_none (le_refl _)] at h1
    have h1 : st.rows.length ≤ m.rows.length := by simpa using h1
    by_contra hne
    have h2 := hinv.rows st.rows.length
    rw [List.getElem?_eq_none (le_refl _), List.getElem?_eq_getElem (by omega)] at h2
    simp at h2
  have hstcols : ∀ (r : Nat) (row : List Nat × List K), st.rows[r]? = some row →
      ∃ row0, m.rows[r]? = some row0 ∧ row.1 = row0.1 := by
    intro r row hr
    rw [hinv.rows] at hr
    cases h0 : m.rows[r]? with
    | none => rw [h0] at hr; cases hr
    | some row0 =>
      rw [h0] at hr
      refine ⟨row0, rfl, ?_⟩
      rw [← Option.some.inj hr]
      split <;> rfl
  obtain ⟨rows', hrun, hrows'⟩ := secondLoop st.member P m.rows.length V st.rows hVnodup hstlen
    (by
      intro row hrow c hc
      obtain ⟨i, hi⟩ := List.mem_iff_getElem?.1 hrow
      obtain ⟨row0, h1, h2⟩ := hstcols i row hi
      have := (hrows row0 (List.mem_of_getElem? h1)).2 c (h2 ▸ hc)
      exact hinv.member c (by omega))
    (by
      intro r hr
      rw [hVmem, hinv.visit] at hr
      obtain ⟨q, _, row, h1, h2, _⟩ := hr
      have := (hrows row (List.mem_of_getElem? h1)).2 r h2
      exact ⟨this, hinv.member r (by omega)⟩)
  have hfinal : ∀ r, rows'[r]? = (m.rows[r]?).map (fun row =>
      if r ∈ P then rowOne s r row else if r ∈ V then rowTwo P row else row) := by
    intro r
    rw [hrows', hinv.rows]
    cases m.rows[r]? with
    | none => rfl
    | some row =>
      simp only [Option.map_some]
      by_cases h1 : r ∈ P <;> by_cases h2 : r ∈ V <;> simp [h1, h2]
  refine ⟨⟨m.ncols, rows'⟩, s, ?_, ⟨rfl, ?_⟩, csrScale_pos _, scale_spec m hwf, ?_⟩
  · unfold dirichletCsr
    simp only [← hs, ← hP, hst, ← hV, hrun, Option.map_some]
  · apply List.ext_getElem?
    intro r
    rw [List.getElem?_map, List.getElem?_map, hfinal]
    cases m.rows[r]? with
    | none => rfl
    | some row =>
      simp only [Option.map_some, Option.some.injEq]
      split
      · rfl
      · split <;> rfl
  · intro r c
    have hcon : ∀ q, Constrained d nodes q ↔ q ∈ P := fun q => (mem_dofs d nodes q).symm
    simp only [hcon]
    unfold entry
    rw [hfinal]
    cases hr : m.rows[r]? with
    | none =>
      have : ¬ Stored m r r := by rintro ⟨row, h, _⟩; rw [hr] at h; cases h
      simp [this]
    | some row =>
      have hlen := (hwf row (List.mem_of_getElem? hr)).1
      have hstored : ∀ c, Stored m r c ↔ c ∈ row.1 := by
        intro c
        constructor
        · rintro ⟨row', h, h'⟩; rw [hr] at h; cases h; exact h'
        · intro h; exact ⟨row, hr, h⟩
      simp only [Option.map_some]
      by_cases h1 : r ∈ P
      · rw [if_pos h1, if_pos (Or.inl h1), rowOne,
          rowEntry_map row.1 row.2 hlen (fun col _ => if col = r then s else 0) c, hstored]
        by_cases h2 : c = r
        · subst h2; simp
        · simp [h2, Ne.symm h2]
      · rw [if_neg h1]
        have hzero : c ∉ row.1 → rowEntry row c = 0 := fun h => rowEntry_not_mem row.1 row.2 c h
        by_cases h2 : c ∈ P
        · rw [if_pos (Or.inr h2)]
          have hne : r ≠ c := fun h => h1 (h ▸ h2)
          rw [if_neg (fun h : r = c ∧ _ => hne h.1)]
          by_cases h3 : c ∈ row.1
          · have hv : r ∈ V := by
              rw [hVmem, hinv.visit]
              obtain ⟨row', h4, h5⟩ := hsym r c ⟨row, hr, h3⟩
              exact ⟨c, h2, row', h4, h5, hne⟩
            rw [if_pos hv, rowTwo,
              rowEntry_map row.1 row.2 hlen (fun col v => if col ∈ P then 0 else v) c]
            simp [h2]
          · by_cases hv : r ∈ V
            · rw [if_pos hv, rowTwo,
                rowEntry_map row.1 row.2 hlen (fun col v => if col ∈ P then 0 else v) c]
              simp [h2]
            · rw [if_neg hv]; exact hzero h3
        · have hnot : ¬ (r ∈ P ∨ c ∈ P) := not_or.2 ⟨h1, h2⟩
          rw [if_neg hnot]
          by_cases hv : r ∈ V
          · rw [if_pos hv, rowTwo,
              rowEntry_map row.1 row.2 hlen (fun col v => if col ∈ P then 0 else v) c]
            by_cases h3 : c ∈ row.1
            · simp [h2, h3]
            · rw [if_neg h3, hzero h3]
          · rw [if_neg hv]

/-- A symmetric matrix stays symmetric. -/
theorem C25_csr_keeps_symmetry (m : Csr K) (nodes : List Nat) (d : Nat) (hwf : WellFormed m)
    (hsq : Square m) (hsym : SymmetricPattern m)
    (hin : ∀ r, Constrained d nodes r → r < m.rows.length)
    (hval : ∀ r c, entry m r c = entry m c r) :
    ∃ m', dirichletCsr m nodes d = some m' ∧ ∀ r c, entry m' r c = entry m' c r := by
  classical
  obtain ⟨m', s, h1, _, _, _, h5⟩ := C25_csr_entries m nodes d hwf hsq hsym hin
  refine ⟨m', h1, fun r c => ?_⟩
  rw [h5, h5, hval r c]
  by_cases h : r = c
  · subst h; rfl
  · simp [h, Ne.symm h, or_comm]

/-- The right-hand side is zeroed on the constrained degrees of freedom and unchanged elsewhere. -/
theorem C25_rhs_entries (rhs : List K) (nodes : List Nat) (d : Nat)
    (hin : ∀ r, Constrained d nodes r → r < rhs.length) :
    ∃ rhs', dirichletRhs rhs nodes d = some rhs' ∧ rhs'.length = rhs.length ∧
      (∀ r, r < rhs.length → Constrained d nodes r → rhs'[r]? = some 0) ∧
      ∀ r, ¬ Constrained d nodes r → rhs'[r]? = rhs[r]? := by
  have key : ∀ (rs : List Nat) (v : List K), (∀ r ∈ rs, r < v.length) →
      ∃ v', rs.foldlM (fun v r => if r < v.length then some (v.set r 0) else none) v = some v' ∧
        v'.length = v.length ∧ (∀ r, r ∈ rs → v'[r]? = some 0) ∧ ∀ r, r ∉ rs → v'[r]? = v[r]? := by
    intro rs
    induction rs with
    | nil => intro v _; exact ⟨v, rfl, rfl, by simp, by simp⟩
    | cons q rs ih =>
      intro v h
      have hq := h q (by simp)
      obtain ⟨v', h1, h2, h3, h4⟩ := ih (v.set q 0) (fun r hr => by
        rw [List.length_set]; exact h r (by simp [hr]))
      refine ⟨v', ?_, by simpa using h2, ?_, ?_⟩
      · rw [List.foldlM_cons, if_pos hq]; exact h1
      · intro r hr
        by_cases hr' : r ∈ rs
        · exact h3 r hr'
        · have : r = q := by simpa [hr'] using hr
          subst this
          rw [h4 r hr', List.getElem?_set_self hq]
      · intro r hr
        simp only [List.mem_cons, not_or] at hr
        rw [h4 r hr.2, List.getElem?_set_ne (Ne.symm hr.1)]
  obtain ⟨v', h1, h2, h3, h4⟩ := key (dirichletDofs d nodes) rhs
    (fun r hr => hin r ((mem_dofs d nodes r).1 hr))
  exact ⟨v', h1, h2, fun r _ hr => h3 r ((mem_dofs d nodes r).2 hr),
    fun r hr => h4 r (fun h => hr ((mem_dofs d nodes r).1 h))⟩

private theorem denseFold (s : K) : ∀ (rs : List Nat) (m : Dense K),
    (∀ r ∈ rs, r < m.nrows ∧ r < m.ncols) →
    ∃ m', rs.foldlM (denseDof s) m = some m' ∧ m'.nrows = m.nrows ∧ m'.ncols = m.ncols ∧
      ∀ i j, m'.at_ i j = if i ∈ rs ∨ j ∈ rs then (if i = j then s else 0) else m.at_ i j := by
  intro rs
  induction rs with
  | nil => intro m _; exact ⟨m, rfl, rfl, rfl, by simp⟩
  | cons q rs ih =>
    intro m h
    have hq := h q (by simp)
    have hstep : ∃ m1, denseDof s m q = some m1 ∧ m1.nrows = m.nrows ∧ m1.ncols = m.ncols ∧
        ∀ i j, m1.at_ i j = if i = q ∨ j = q then (if i = j then s else 0) else m.at_ i j := by
      refine ⟨_, (by rw [denseDof, if_pos ⟨hq.2, hq.1⟩] : denseDof s m q = some
        { m with at_ := fun i j => if i = q ∧ j = q then s else if i = q then 0 else
          if j = q then 0 else m.at_ i j }), rfl, rfl, ?_⟩
      intro i j
      by_cases h1 : i = q <;> by_cases h2 : j = q
      · simp [h1, h2]
      · simp [h1, h2, Ne.symm h2]
      · simp [h1, h2]
      · simp [h1, h2]
    obtain ⟨m1, e1, e2, e3, e4⟩ := hstep
    obtain ⟨m', h1, h2, h3, h4⟩ := ih m1 (fun r hr => by rw [e2, e3]; exact h r (by simp [hr]))
    refine ⟨m', ?_, h2.trans e2, h3.trans e3, ?_⟩
    · rw [List.foldlM_cons, e1]; exact h1
    · intro i j
      rw [h4, e4]
      by_cases a : i ∈ rs <;> by_cases b : j ∈ rs <;> by_cases c : i = q <;> by_cases e : j = q <;>
        simp [a, b, c, e]

private theorem foldl_add_sum (l : List K) (a : K) : l.foldl (fun a b => a + b) a = a + l.sum := by
  induction l generalizing a with
  | nil => simp
  | cons x l ih => rw [List.foldl_cons, ih, List.sum_cons, add_assoc]

open Classical in
/-- The dense variant has the same effect with the mean magnitude of the diagonal as the scale, which is
positive exactly when some diagonal entry is non-zero. -/
theorem C25_dense_entries (m : Dense K) (nodes : List Nat) (d : Nat) (hsq : m.nrows = m.ncols)
    (hin : ∀ r, Constrained d nodes r → r < m.nrows) :
    ∃ m' s, dirichletDense m nodes d = some m' ∧ m'.nrows = m.nrows ∧ m'.ncols = m.ncols ∧
      s = (∑ i ∈ Finset.range m.nrows, |m.at_ i i|) / (m.nrows : K) ∧
      (0 < s ↔ ∃ i, i < m.nrows ∧ m.at_ i i ≠ 0) ∧
      ∀ i j, m'.at_ i j =
        if Constrained d nodes i ∨ Constrained d nodes j then (if i = j then s else 0)
        else m.at_ i j := by
  have hs : denseScale m = (∑ i ∈ Finset.range m.nrows, |m.at_ i i|) / (m.nrows : K) := by
    rw [denseScale, ← hsq, min_self, foldl_add_sum, zero_add, Finset.sum_range]
    congr 1
    rw [← List.sum_ofFn]
    congr 1
    apply List.ext_getElem <;> simp
  obtain ⟨m', h1, h2, h3, h4⟩ := denseFold (denseScale m) (dirichletDofs d nodes) m
    (fun r hr => by
      have := hin r ((mem_dofs d nodes r).1 hr)
      exact ⟨this, hsq ▸ this⟩)
  refine ⟨m', denseScale m, h1, h2, h3, hs, ?_, ?_⟩
  · rw [hs]
    constructor
    · intro hpos
      by_contra hcon
      have : (∑ i ∈ Finset.range m.nrows, |m.at_ i i|) = 0 := by
        apply Finset.sum_eq_zero
        intro i hi
        by_contra h0
        exact hcon ⟨i, Finset.mem_range.1 hi, fun h => h0 (by rw [h, abs_zero])⟩
      rw [this, zero_div] at hpos
      exact lt_irrefl _ hpos
    · rintro ⟨i, hi, h0⟩
      apply div_pos
      · exact Finset.sum_pos' (fun j _ => abs_nonneg _) ⟨i, Finset.mem_range.2 hi, abs_pos.2 h0⟩
      · exact_mod_cast (by omega : 0 < m.nrows)
  · intro i j
    rw [h4]
    simp only [mem_dofs]

private theorem solves_iff (n d : Nat) (nodes : List Nat) (A A' : Nat → Nat → K) (b b' x : Nat → K)
    (s : K) (hs : s ≠ 0)
    (hA1 : ∀ r c, r < n → c < n → Constrained d nodes r → A' r c = if r = c then s else 0)
    (hA3 : ∀ r c, ¬ Constrained d nodes r → ¬ Constrained d nodes c → A' r c = A r c)
    (hb1 : ∀ r, r < n → Constrained d nodes r → b' r = 0)
    (hb2 : ∀ r, r < n → ¬ Constrained d nodes r → b' r = b r) :
    Solves n A' b' x ↔ SolvesConstrained n d nodes A b x := by
  have hrow : ∀ r, r < n → Constrained d nodes r →
      (∑ c ∈ Finset.range n, A' r c * x c) = s * x r := by
    intro r hr hc
    rw [Finset.sum_eq_single r]
    · rw [hA1 r r hr hr hc, if_pos rfl]
    · intro c hc' hne
      rw [hA1 r c hr (Finset.mem_range.1 hc') hc, if_neg (Ne.symm hne), zero_mul]
    · intro h; exact absurd (Finset.mem_range.2 hr) h
  have hfree : (∀ r, r < n → Constrained d nodes r → x r = 0) → ∀ r, r < n →
      ¬ Constrained d nodes r →
      (∑ c ∈ Finset.range n, A' r c * x c) = ∑ c ∈ Finset.range n, A r c * x c := by
    intro h0 r hr hc
    apply Finset.sum_congr rfl
    intro c hcm
    by_cases hcc : Constrained d nodes c
    · rw [h0 c (Finset.mem_range.1 hcm) hcc, mul_zero, mul_zero]
    · rw [hA3 r c hc hcc]
  constructor
  · intro h
    have h0 : ∀ r, r < n → Constrained d nodes r → x r = 0 := by
      intro r hr hc
      have := h r hr
      rw [hrow r hr hc, hb1 r hr hc] at this
      exact (mul_eq_zero.1 this).resolve_left hs
    exact ⟨h0, fun r hr hc => by rw [← hfree h0 r hr hc, h r hr, hb2 r hr hc]⟩
  · rintro ⟨h0, h1⟩ r hr
    by_cases hc : Constrained d nodes r
    · rw [hrow r hr hc, h0 r hr hc, mul_zero, hb1 r hr hc]
    · rw [hfree h0 r hr hc, h1 r hr hc, hb2 r hr hc]

/-- The system after `apply_homogeneous_dirichlet_bc_csr` and `apply_homogeneous_dirichlet_bc_rhs` has
exactly the solutions of the constrained problem: zero on the constrained degrees of freedom, and the
original equations for the others. The diagonal entries of the constrained rows must be stored. -/
theorem C25_csr_solutions (m : Csr K) (rhs : List K) (nodes : List Nat) (d : Nat)
    (hwf : WellFormed m) (hsq : Square m) (hsym : SymmetricPattern m)
    (hlen : rhs.length = m.rows.length)
    (hin : ∀ r, Constrained d nodes r → r < m.rows.length)
    (hdiag : ∀ r, Constrained d nodes r → Stored m r r) :
    ∃ m' rhs', dirichletCsr m nodes d = some m' ∧ dirichletRhs rhs nodes d = some rhs' ∧
      ∀ x : Nat → K, Solves m.rows.length (entry m') (fun r => rhs'.getD r 0) x ↔
        SolvesConstrained m.rows.length d nodes (entry m) (fun r => rhs.getD r 0) x := by
  obtain ⟨m', s, h1, _, h3, _, h5⟩ := C25_csr_entries m nodes d hwf hsq hsym hin
  obtain ⟨rhs', g1, _, g3, g4⟩ := C25_rhs_entries rhs nodes d (fun r h => hlen ▸ hin r h)
  refine ⟨m', rhs', h1, g1, fun x => ?_⟩
  apply solves_iff (s := s) (hs := ne_of_gt h3)
  · intro r c _ _ hc
    rw [h5, if_pos (Or.inl hc)]
    simp [hdiag r hc]
  · intro r c hr hc
    rw [h5, if_neg (by simp [hr, hc])]
  · intro r hr hc
    rw [List.getD_eq_getElem?_getD, g3 r (hlen ▸ hr) hc]; rfl
  · intro r _ hc
    rw [List.getD_eq_getElem?_getD, g4 r hc, ← List.getD_eq_getElem?_getD]

/-- The same for the dense variant, if the diagonal is not entirely zero. -/
theorem C25_dense_solutions (m : Dense K) (rhs : List K) (nodes : List Nat) (d : Nat)
    (hsq : m.nrows = m.ncols) (hlen : rhs.length = m.nrows)
    (hin : ∀ r, Constrained d nodes r → r < m.nrows)
    (hdiag : ∃ i, i < m.nrows ∧ m.at_ i i ≠ 0) :
    ∃ m' rhs', dirichletDense m nodes d = some m' ∧ dirichletRhs rhs nodes d = some rhs' ∧
      ∀ x : Nat → K, Solves m.nrows m'.at_ (fun r => rhs'.getD r 0) x ↔
        SolvesConstrained m.nrows d nodes m.at_ (fun r => rhs.getD r 0) x := by
  obtain ⟨m', s, h1, _, _, _, h4, h5⟩ := C25_dense_entries m nodes d hsq hin
  obtain ⟨rhs', g1, _, g3, g4⟩ := C25_rhs_entries rhs nodes d (fun r h => hlen ▸ hin r h)
  refine ⟨m', rhs', h1, g1, fun x => ?_⟩
  apply solves_iff (s := s) (hs := ne_of_gt (h4.2 hdiag))
  · intro r c _ _ hc
    rw [h5, if_pos (Or.inl hc)]
  · intro r c hr hc
    rw [h5, if_neg (by simp [hr, hc])]
  · intro r hr hc
    rw [List.getD_eq_getElem?_getD, g3 r (hlen ▸ hr) hc]; rfl
  · intro r _ hc
    rw [List.getD_eq_getElem?_getD, g4 r hc, ← List.getD_eq_getElem?_getD]

/-- An assembled matrix meets all these conditions if every constrained node belongs to an element: matrix
assembly followed by the two functions gives a system with exactly the solutions of the constrained
problem. -/
theorem C25_assembled_system_solutions {E : Type} (ord : List Nat → List Nat)
    (hord : ∀ l, (ord l).Perm l) (sortNodes : List (Nat × Nat) → List (Nat × Nat))
    (hsort : SortsNodes sortNodes) (c : Conn) (hdim : 0 < c.solutionDim) (hc : NodesInBounds c)
    (hnd : ∀ e ∈ c.elements, e.Nodup) (elemMat : Nat → Except E (Nat → Nat → K))
    (A : Nat → Nat → Nat → K) (hA : ∀ e, e < c.elements.length → elemMat e = .ok (A e))
    (rhs : List K) (hlen : rhs.length = c.solutionDim * c.numNodes) (nodes : List Nat)
    (hnodes : ∀ n ∈ nodes, ∃ e ∈ c.elements, n ∈ e) :
    ∃ m m' rhs', assemble ord sortNodes c elemMat = some (.ok m) ∧
      dirichletCsr m nodes c.solutionDim = some m' ∧
      dirichletRhs rhs nodes c.solutionDim = some rhs' ∧
      ∀ x : Nat → K,
        Solves (c.solutionDim * c.numNodes) (entry m') (fun r => rhs'.getD r 0) x ↔
        SolvesConstrained (c.solutionDim * c.numNodes) c.solutionDim nodes
          (fun r col => ∑ e : Fin c.elements.length,
            matrixContribution c.solutionDim c.elements[e] (A e) r col)
          (fun r => rhs.getD r 0) x := by
  obtain ⟨m, h1, h2, h3, h4, h5, h6⟩ := C21_assemble_is_sum_of_contributions ord hord sortNodes hsort c
    hdim hc hnd elemMat A hA
  have hbound : ∀ e ∈ c.elements, ∀ j, j / c.solutionDim ∈ e → j < c.solutionDim * c.numNodes := by
    intro e he j hj
    have := hc e he _ hj
    rw [Nat.div_lt_iff_lt_mul hdim] at this
    rwa [Nat.mul_comm] at this
  have hstored : ∀ r j, Stored m r j ↔
      ∃ e ∈ c.elements, r / c.solutionDim ∈ e ∧ j / c.solutionDim ∈ e := by
    intro r j
    constructor
    · rintro ⟨row, hr, hj⟩
      exact (h5 r row hr j).1 hj
    · rintro ⟨e, he, hr, hj⟩
      have hlt : r < m.rows.length := by rw [h3]; exact hbound e he r hr
      exact ⟨_, List.getElem?_eq_getElem hlt,
        (h5 r _ (List.getElem?_eq_getElem hlt) j).2 ⟨e, he, hr, hj⟩⟩
  have hcon : ∀ r, Constrained c.solutionDim nodes r →
      ∃ e ∈ c.elements, r / c.solutionDim ∈ e := by
    rintro r ⟨n, hn, i, hi, rfl⟩
    obtain ⟨e, he, hne⟩ := hnodes n hn
    refine ⟨e, he, ?_⟩
    rw [Nat.mul_add_div hdim, Nat.div_eq_of_lt hi]
    exact hne
  obtain ⟨m', rhs', g1, g2, g3⟩ := C25_csr_solutions m rhs nodes c.solutionDim h2
    ⟨h4.trans h3.symm, fun r j h => by
      obtain ⟨e, he, _, hj⟩ := (hstored r j).1 h
      rw [h4]; exact hbound e he j hj⟩
    (fun r j h => by
      obtain ⟨e, he, hr, hj⟩ := (hstored r j).1 h
      exact (hstored j r).2 ⟨e, he, hj, hr⟩)
    (hlen.trans h3.symm)
    (fun r h => by
      obtain ⟨e, he, hr⟩ := hcon r h
      rw [h3]; exact hbound e he r hr)
    (fun r h => by
      obtain ⟨e, he, hr⟩ := hcon r h
      exact (hstored r r).2 ⟨e, he, hr, hr⟩)
  refine ⟨m, m', rhs', h1, g1, g2, fun x => ?_⟩
  rw [h3] at g3
  rw [g3]
  have : entry m = (fun r col => ∑ e : Fin c.elements.length,
            matrixContribution c.solutionDim c.elements[e] (A e) r col) := by
    funext r col; exact h6 r col
  rw [this]

/-- Finding: if the diagonal entry of a constrained row is not stored, its equation becomes `0 = 0`, so
the unknown is no longer forced to zero. -/
theorem C25_missing_diagonal_leaves_zero_row :
    dirichletCsr (⟨2, [([1], [(3 : ℚ)]), ([0, 1], [3, 5])]⟩ : Csr ℚ) [0] 1 =
      some ⟨2, [([1], [0]), ([0, 1], [0, 5])]⟩ := by decide +kernel

/-- Finding: with an unsymmetric pattern the constrained column is not cleared. -/
theorem C25_unsymmetric_pattern_keeps_column :
    dirichletCsr (⟨2, [([0], [(3 : ℚ)]), ([0, 1], [7, 5])]⟩ : Csr ℚ) [0] 1 =
      some ⟨2, [([0], [3]), ([0, 1], [7, 5])]⟩ := by decide +kernel

/-- Finding: the dense variant applied to a matrix with zero diagonal makes the constrained equations
`0 = 0`. -/
theorem C25_dense_zero_diagonal_leaves_zero_row (m : Dense K) (nodes : List Nat) (d : Nat)
    (hsq : m.nrows = m.ncols) (hin : ∀ r, Constrained d nodes r → r < m.nrows)
    (hzero : ∀ i, i < m.nrows → m.at_ i i = 0) :
    ∃ m', dirichletDense m nodes d = some m' ∧
      ∀ r c, Constrained d nodes r → m'.at_ r c = 0 := by
  obtain ⟨m', s, h1, _, _, hs, h4, h5⟩ := C25_dense_entries m nodes d hsq hin
  refine ⟨m', h1, fun r c hr => ?_⟩
  have hs0 : s = 0 := by
    rw [hs, Finset.sum_eq_zero, zero_div]
    intro i hi
    rw [hzero i (Finset.mem_range.1 hi), abs_zero]
  rw [h5, if_pos (Or.inl hr), hs0]
  simp

/-- Non-vacuity: a 4×4 system with two unknowns per node, second node constrained. -/
def exampleCsr : Csr ℚ :=
  ⟨4, [([0, 1, 2], [0, 1, 4]), ([0, 1, 3], [1, -6, 5]), ([0, 2], [4, 7]), ([1, 3], [5, 8])]⟩

example : dirichletCsr exampleCsr [1] 2 =
    some ⟨4, [([0, 1, 2], [0, 1, 0]), ([0, 1, 3], [1, -6, 0]), ([0, 2], [0, 6]), ([1, 3], [0, 6])]⟩ := by
  decide +kernel

private theorem exampleStored (r c : Nat) : Stored exampleCsr r c ↔
    (r, c) ∈ [(0,0),(0,1),(0,2),(1,0),(1,1),(1,3),(2,0),(2,2),(3,1),(3,3)] := by
  constructor
  · rintro ⟨row, h1, h2⟩
    match r, h1 with
    | 0, h1 => cases h1; revert h2; simp
    | 1, h1 => cases h1; revert h2; simp
    | 2, h1 => cases h1; revert h2; simp
    | 3, h1 => cases h1; revert h2; simp
    | r + 4, h1 => simp [exampleCsr] at h1
  · intro h
    simp only [List.mem_cons, Prod.mk.injEq, List.not_mem_nil, or_false] at h
    rcases h with ⟨rfl,rfl⟩|⟨rfl,rfl⟩|⟨rfl,rfl⟩|⟨rfl,rfl⟩|⟨rfl,rfl⟩|⟨rfl,rfl⟩|⟨rfl,rfl⟩|⟨rfl,rfl⟩|
      ⟨rfl,rfl⟩|⟨rfl,rfl⟩ <;> exact ⟨_, rfl, by simp⟩

private theorem exampleConstrained (r : Nat) : Constrained 2 [1] r ↔ r = 2 ∨ r = 3 := by
  constructor
  · rintro ⟨n, hn, i, hi, rfl⟩
    have : n = 1 := by simpa using hn
    omega
  · rintro (rfl | rfl)
    · exact ⟨1, by simp, 0, by omega, rfl⟩
    · exact ⟨1, by simp, 1, by omega, rfl⟩

example : WellFormed exampleCsr ∧ Square exampleCsr ∧ SymmetricPattern exampleCsr ∧
    (∀ r, Constrained 2 [1] r → r < exampleCsr.rows.length) ∧
    ∀ r, Constrained 2 [1] r → Stored exampleCsr r r := by
  refine ⟨?_, ⟨rfl, ?_⟩, ?_, ?_, ?_⟩
  · intro row h
    simp only [exampleCsr, List.mem_cons, List.not_mem_nil, or_false] at h
    rcases h with rfl|rfl|rfl|rfl <;> decide
  · intro r c h
    rw [exampleStored] at h
    simp only [List.mem_cons, Prod.mk.injEq, List.not_mem_nil, or_false] at h
    show c < 4
    omega
  · intro r c h
    rw [exampleStored] at h ⊢
    simp only [List.mem_cons, Prod.mk.injEq, List.not_mem_nil, or_false] at h ⊢
    omega
  · intro r h
    rw [exampleConstrained] at h
    show r < 4
    omega
  · intro r h
    rw [exampleConstrained] at h
    rw [exampleStored]
    rcases h with rfl | rfl <;> simp

end Assembly
end Fenris
