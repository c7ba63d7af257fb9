import Verif.Lemmas.ColorAssembly
import Verif.Spec.Assembly
import Verif.Lemmas.Pattern
/-! # Adding an element row to a sparse row -/
set_option autoImplicit false
set_option linter.unusedSectionVars false

namespace Fenris
namespace Assembly
open Spec

variable {K : Type} [AddCommMonoid K]

theorem rowEntry_not_mem (cols : List Nat) (vals : List K) (c : Nat) (h : c ∉ cols) :
    rowEntry (cols, vals) c = 0 := by
  have : (cols.zip vals).find? (fun p => p.1 == c) = none := by
    rw [List.find?_eq_none]
    rintro ⟨x, v⟩ hx
    have := (List.of_mem_zip hx).1
    simp only [beq_iff_eq]
    rintro rfl; exact h this
  simp only [rowEntry, this]

theorem rowEntry_get (cols : List Nat) (vals : List K) (hl : vals.length = cols.length)
    (hn : cols.Nodup) (p c : Nat) (h : cols[p]? = some c) :
    rowEntry (cols, vals) c = vals[p]?.getD 0 := by
  induction cols generalizing vals p with
  | nil => simp at h
  | cons x cols ih =>
    cases vals with
    | nil => simp at hl
    | cons v vals =>
      simp only [List.nodup_cons] at hn
      cases p with
      | zero =>
        simp only [List.getElem?_cons_zero, Option.some.injEq] at h
        subst h
        simp [rowEntry]
      | succ p =>
        rw [List.getElem?_cons_succ] at h
        have hne : x ≠ c := by
          rintro rfl; exact hn.1 (List.mem_of_getElem? h)
        have := ih vals (by simpa using hl) hn.2 p h
        simp only [List.getElem?_cons_succ]
        rw [← this]
        simp [rowEntry, hne]

theorem rowEntry_set (cols : List Nat) (vals : List K) (hl : vals.length = cols.length)
    (hn : cols.Nodup) (p c0 : Nat) (h : cols[p]? = some c0) (x v : K) (hx : vals[p]? = some x)
    (c : Nat) :
    rowEntry (cols, vals.set p (x + v)) c = rowEntry (cols, vals) c + if c0 = c then v else 0 := by
  by_cases hc : c ∈ cols
  · obtain ⟨q, hq, rfl⟩ := List.getElem_of_mem hc
    have hq' := List.getElem?_eq_getElem hq
    rw [rowEntry_get cols _ (by simpa using hl) hn q _ hq', rowEntry_get cols _ hl hn q _ hq']
    by_cases hpq : p = q
    · subst hpq
      rw [h] at hq'
      have hp : p < vals.length := by rw [hl]; exact hq
      rw [List.getElem?_set_self hp, hx, if_pos (Option.some.inj hq')]
      rfl
    · have hne : c0 ≠ cols[q] := by
        intro he
        apply hpq
        have hp : p < cols.length := by
          by_contra hcon; rw [List.getElem?_eq_none (by omega)] at h; cases h
        rw [List.getElem?_eq_getElem hp] at h
        have : cols[p] = cols[q] := by rw [← he]; exact Option.some.inj h
        exact (List.Nodup.getElem_inj_iff hn).1 this
      rw [List.getElem?_set_ne hpq, if_neg hne, add_zero]
  · have hne : c0 ≠ c := by
      rintro rfl; exact hc (List.mem_of_getElem? h)
    rw [rowEntry_not_mem _ _ _ hc, rowEntry_not_mem _ _ _ hc, if_neg hne, add_zero]

theorem dropWhile_zipIdx (cols : List Nat) (hn : cols.Nodup) (m p c : Nat) (hmp : m ≤ p)
    (hp : cols[p]? = some c) :
    (cols.zipIdx.drop m).dropWhile (fun q => q.1 != c) = (c, p) :: cols.zipIdx.drop (p + 1) := by
  have hpl : p < cols.length := by
    by_contra hcon; rw [List.getElem?_eq_none (by omega)] at hp; cases hp
  obtain ⟨d, rfl⟩ : ∃ d, p = m + d := ⟨p - m, by omega⟩
  induction d generalizing m with
  | zero =>
    have hlt : m < cols.zipIdx.length := by simpa using hpl
    rw [List.drop_eq_getElem_cons hlt]
    have hc : cols[m] = c := by
      rw [Nat.add_zero, List.getElem?_eq_getElem (by simpa using hpl)] at hp
      exact Option.some.inj hp
    have : (cols.zipIdx)[m] = (c, m) := by simp [hc]
    rw [this, List.dropWhile_cons]
    simp
  | succ d ih =>
    have hlt : m < cols.zipIdx.length := by simp; omega
    rw [List.drop_eq_getElem_cons hlt]
    have hm : m < cols.length := by omega
    have hne : cols[m] ≠ c := by
      intro he
      rw [List.getElem?_eq_getElem hpl] at hp
      have : cols[m] = cols[m + (d + 1)] := by rw [he]; exact (Option.some.inj hp).symm
      have := (List.Nodup.getElem_inj_iff hn).1 this
      omega
    rw [List.dropWhile_cons, if_pos (by simp [hne])]
    have := ih (m + 1) (by omega) (by rw [← hp]; congr 1; omega) (by omega)
    rw [this, show m + 1 + d = m + (d + 1) by omega]

/-- The loop finds every target and adds its value. -/
theorem addLoop_spec (cols : List Nat) (hs : cols.Pairwise (fun a b => a < b)) :
    ∀ (targets : List (Nat × K)) (m : Nat) (vals : List K),
    targets.Pairwise (fun p q => p.1 < q.1) → (∀ t ∈ targets, t.1 ∈ cols.drop m) →
    vals.length = cols.length →
    ∃ vals', addLoop targets (cols.zipIdx.drop m) vals = some vals' ∧
      vals'.length = cols.length ∧
      ∀ c, rowEntry (cols, vals') c = rowEntry (cols, vals) c +
        (targets.map (fun t => if t.1 = c then t.2 else 0)).sum := by
  have hn : cols.Nodup := hs.imp (fun h => Nat.ne_of_lt h)
  intro targets
  induction targets with
  | nil => intro m vals _ _ hl; exact ⟨vals, by simp [addLoop], hl, by simp⟩
  | cons t targets ih =>
    intro m vals ht hmem hl
    obtain ⟨c0, v⟩ := t
    have h0 := hmem (c0, v) (by simp)
    obtain ⟨q, hq, hqe⟩ := List.getElem_of_mem h0
    have hp : cols[m + q]? = some c0 := by
      rw [← List.getElem?_drop, List.getElem?_eq_getElem hq, hqe]
    have hpl : m + q < cols.length := by
      by_contra hcon; rw [List.getElem?_eq_none (by omega)] at hp; cases hp
    have hx : vals[m + q]? = some vals[m + q] := List.getElem?_eq_getElem (by omega)
    rw [List.pairwise_cons] at ht
    obtain ⟨vals', h1, h2, h3⟩ := ih (m + q + 1) (vals.set (m + q) (vals[m + q] + v)) ht.2 (by
      intro t' ht'
      have hlt := ht.1 t' ht'
      have := hmem t' (by simp [ht'])
      obtain ⟨k, hk, hke⟩ := List.getElem_of_mem this
      have hk' : cols[m + k]? = some t'.1 := by
        rw [← List.getElem?_drop, List.getElem?_eq_getElem hk, hke]
      have hkl : m + k < cols.length := by
        by_contra hcon; rw [List.getElem?_eq_none (by omega)] at hk'; cases hk'
      have hqk : q < k := by
        by_contra hcon
        rw [List.getElem?_eq_getElem hpl] at hp
        rw [List.getElem?_eq_getElem hkl] at hk'
        have e1 := Option.some.inj hp
        have e2 := Option.some.inj hk'
        rcases Nat.lt_or_ge k q with hlt' | hge
        · have := List.pairwise_iff_getElem.1 hs (m + k) (m + q) hkl hpl (by omega)
          rw [e1, e2] at this
          simp only at hlt; omega
        · have : k = q := by omega
          subst this
          rw [e1] at e2; simp only at hlt; omega
      rw [List.mem_iff_getElem?]
      refine ⟨k - q - 1, ?_⟩
      rw [List.getElem?_drop, ← hk']
      congr 1; omega) (by simpa using hl)
    refine ⟨vals', ?_, h2, ?_⟩
    · rw [addLoop, dropWhile_zipIdx cols hn m (m + q) c0 (by omega) hp]
      simp only [hx]
      exact h1
    · intro c
      rw [h3, rowEntry_set cols vals hl hn (m + q) c0 hp _ v hx c]
      simp [add_assoc]

/-- The targets of an element row. -/
theorem targets_sorted (s : Nat) (sorted : List (Nat × Nat)) (f : Nat → K)
    (h : sorted.Pairwise (fun p q => p.1 < q.1)) :
    (sorted.flatMap (fun p => (List.range s).map
      (fun i => (s * p.1 + i, f (s * p.2 + i))))).Pairwise (fun p q => p.1 < q.1) := by
  induction sorted with
  | nil => simp
  | cons p sorted ih =>
    rw [List.pairwise_cons] at h
    rw [List.flatMap_cons, List.pairwise_append]
    refine ⟨?_, ih h.2, ?_⟩
    · rw [List.pairwise_map]
      exact List.pairwise_lt_range.imp (fun h => by simpa using h)
    · intro x hx y hy
      simp only [List.mem_map, List.mem_range, List.mem_flatMap] at hx hy
      obtain ⟨i, hi, rfl⟩ := hx
      obtain ⟨q, hq, j, hj, rfl⟩ := hy
      have := h.1 q hq
      have : s * p.1 + s ≤ s * q.1 := by
        rw [← Nat.mul_succ]; exact Nat.mul_le_mul (Nat.le_refl _) this
      simp only; omega

/-- What one row of the element matrix adds to column `c`. -/
def rowDelta (s : Nat) (nodes : List Nat) (f : Nat → K) (c : Nat) : K :=
  ∑ b ∈ Finset.range nodes.length, ∑ j ∈ Finset.range s,
    if s * (nodes[b]?.getD 0) + j = c then f (s * b + j) else 0

theorem sum_flatMap {α β : Type} (l : List α) (f : α → List β) (g : β → K) :
    ((l.flatMap f).map g).sum = (l.map (fun a => ((f a).map g).sum)).sum := by
  induction l with
  | nil => simp
  | cons a l ih => rw [List.flatMap_cons, List.map_append, List.sum_append, ih]; simp

theorem addElementRow_spec (s : Nat) (hs0 : 0 < s)
    (sortNodes : List (Nat × Nat) → List (Nat × Nat)) (hsort : SortsNodes sortNodes)
    (nodes : List Nat) (hnd : nodes.Nodup) (f : Nat → K) (cols : List Nat) (vals : List K)
    (hs : cols.Pairwise (fun a b => a < b)) (hl : vals.length = cols.length)
    (hcov : ∀ n ∈ nodes, ∀ j, j < s → s * n + j ∈ cols) :
    ∃ vals', addElementRow s (sortNodes nodes.zipIdx) f (cols, vals) = some (cols, vals') ∧
      vals'.length = cols.length ∧
      ∀ c, rowEntry (cols, vals') c = rowEntry (cols, vals) c + rowDelta s nodes f c := by
  obtain ⟨hperm, hle⟩ := hsort nodes.zipIdx
  have hfst : ((sortNodes nodes.zipIdx).map Prod.fst).Nodup := by
    rw [(hperm.map Prod.fst).nodup_iff, List.zipIdx_map_fst]
    exact hnd
  have hstrict : (sortNodes nodes.zipIdx).Pairwise (fun p q => p.1 < q.1) := by
    have h1 : (sortNodes nodes.zipIdx).Pairwise (fun p q => p.1 ≠ q.1) := by
      have := hfst
      rw [List.Nodup, List.pairwise_map] at this
      exact this
    exact (hle.and h1).imp (fun h => by omega)
  obtain ⟨vals', h1, h2, h3⟩ := addLoop_spec cols hs
    ((sortNodes nodes.zipIdx).flatMap (fun p => (List.range s).map
      (fun i => (s * p.1 + i, f (s * p.2 + i))))) 0 vals
    (targets_sorted s _ f hstrict) (by
      intro t ht
      simp only [List.mem_flatMap, List.mem_map, List.mem_range] at ht
      obtain ⟨p, hp, i, hi, rfl⟩ := ht
      have := List.mem_of_getElem? (mem_zipIdx_get nodes p (hperm.mem_iff.1 hp))
      simpa using hcov _ this i hi) hl
  refine ⟨vals', ?_, h2, ?_⟩
  · unfold addElementRow
    rw [if_pos (show s ≥ 1 from hs0)]
    rw [List.drop_zero] at h1
    rw [h1]; rfl
  · intro c
    rw [h3, sum_flatMap]
    congr 1
    rw [(hperm.map _).sum_eq, sum_zipIdx]
    unfold rowDelta
    apply Finset.sum_congr rfl
    intro b _
    rw [List.map_map, sum_map_range]
    rfl

/-- Rows keep their columns. -/
def RowGood (lanes : List (List Nat)) (r : Nat) (row : List Nat × List K) : Prop :=
  lanes[r]? = some row.1 ∧ row.2.length = row.1.length

theorem matrixUpd_ok (s : Nat) (hs0 : 0 < s) (sortNodes : List (Nat × Nat) → List (Nat × Nat))
    (hsort : SortsNodes sortNodes) (lanes : List (List Nat))
    (hlanes : ∀ l ∈ lanes, l.Pairwise (fun a b => a < b)) (nodes : List Nat) (hnd : nodes.Nodup)
    (hcov : ∀ n ∈ nodes, ∀ n' ∈ nodes, ∀ i j, i < s → j < s → ∀ lane,
      lanes[s * n + i]? = some lane → s * n' + j ∈ lane) (A : Nat → Nat → K) :
    UpdOk rowEntry (RowGood lanes) s nodes (matrixUpd s sortNodes nodes A)
      (fun a i c => rowDelta s nodes (A (s * a + i)) c) := by
  intro a n ha i hi row hrow
  obtain ⟨cols, vals⟩ := row
  obtain ⟨vals', h1, h2, h3⟩ := addElementRow_spec s hs0 sortNodes hsort nodes hnd
    (A (s * a + i)) cols vals (hlanes _ (List.mem_of_getElem? hrow.1)) hrow.2
    (fun n' hn' j hj => hcov n (List.mem_of_getElem? ha) n' hn' i j hi hj _ hrow.1)
  exact ⟨(cols, vals'), h1, ⟨hrow.1, h2⟩, h3⟩

theorem elemSum_matrix (s : Nat) (nodes : List Nat) (A : Nat → Nat → K) (r c : Nat) :
    elemSum s nodes (fun a i c => rowDelta s nodes (A (s * a + i)) c) (r, c) =
      matrixContribution s nodes A r c := by
  unfold elemSum matrixContribution nodeSum
  rw [Finset.sum_range]
  apply Finset.sum_congr rfl
  intro a _
  rw [Finset.sum_range]
  apply Finset.sum_congr rfl
  intro i _
  simp only [Fin.is_lt, List.getElem?_eq_getElem, Option.getD_some,
    Fin.getElem_fin]
  split
  · rename_i h
    unfold rowDelta
    rw [Finset.sum_range]
    apply Finset.sum_congr rfl
    intro b _
    rw [Finset.sum_range]
    apply Finset.sum_congr rfl
    intro j _
    simp [h]
  · rename_i h
    symm
    apply Finset.sum_eq_zero
    intro b _
    apply Finset.sum_eq_zero
    intro j _
    simp [h]

theorem elemSum_vector (s : Nat) (nodes : List Nat) (v : Nat → K) (r : Nat) :
    elemSum s nodes (fun a i (_ : Unit) => v (s * a + i)) (r, ()) =
      vectorContribution s nodes v r := by
  unfold elemSum vectorContribution nodeSum
  rw [Finset.sum_range]
  apply Finset.sum_congr rfl
  intro a _
  rw [Finset.sum_range]
  apply Finset.sum_congr rfl
  intro i _
  simp

theorem vectorUpd_ok (s : Nat) (nodes : List Nat) (v : Nat → K) :
    UpdOk (fun x (_ : Unit) => x) (fun _ _ => True) s nodes (vectorUpd s v)
      (fun a i _ => v (s * a + i)) := by
  intro a n _ i _ row _
  exact ⟨_, rfl, trivial, fun _ => rfl⟩

/-- Rows with the same columns and the same entries are equal. -/
theorem rows_ext (lanes : List (List Nat)) (hlanes : ∀ l ∈ lanes, l.Pairwise (fun a b => a < b))
    (rows rows' : List (List Nat × List K)) (hlen : rows.length = rows'.length)
    (h : AllGood (RowGood lanes) rows) (h' : AllGood (RowGood lanes) rows')
    (he : ∀ r c, obsAt rowEntry rows (r, c) = obsAt rowEntry rows' (r, c)) : rows = rows' := by
  apply List.ext_getElem hlen
  intro r h1 h2
  have g1 := h r _ (List.getElem?_eq_getElem h1)
  have g2 := h' r _ (List.getElem?_eq_getElem h2)
  have hcols : rows[r].1 = rows'[r].1 := by
    have := g1.1; rw [g2.1] at this; exact (Option.some.inj this).symm
  have hn : rows[r].1.Nodup := (hlanes _ (List.mem_of_getElem? g1.1)).imp (fun h => Nat.ne_of_lt h)
  refine Prod.ext hcols ?_
  apply List.ext_getElem (by rw [g1.2, g2.2, hcols])
  intro q hq1 hq2
  have hq : q < rows[r].1.length := by rw [← g1.2]; exact hq1
  have hc := List.getElem?_eq_getElem hq
  have := he r rows[r].1[q]
  simp only [obsAt, List.getElem?_eq_getElem h1, List.getElem?_eq_getElem h2] at this
  rw [rowEntry_get _ _ g1.2 hn q _ hc,
    show rows'[r] = (rows[r].1, rows'[r].2) from Prod.ext hcols.symm rfl,
    rowEntry_get _ _ (by rw [g2.2, hcols]) hn q _ hc, List.getElem?_eq_getElem hq1,
    List.getElem?_eq_getElem (by simpa using hq2)] at this
  simpa using this

/-- The invariant holds for well-formed matrices. -/
theorem allGood_of_wf (m : Csr K) (h : WellFormed m) :
    AllGood (RowGood (m.rows.map Prod.fst)) m.rows := by
  intro r row hr
  refine ⟨by simp [hr], (h row (List.mem_of_getElem? hr)).1⟩

theorem lanes_of_wf (m : Csr K) (h : WellFormed m) :
    ∀ l ∈ m.rows.map Prod.fst, l.Pairwise (fun a b => a < b) := by
  intro l hl
  obtain ⟨row, hr, rfl⟩ := List.mem_map.1 hl
  exact (h row hr).2

theorem cover_lanes (m : Csr K) (c : Conn) (h : Covers m c) (nodes : List Nat)
    (hn : nodes ∈ c.elements) :
    ∀ n ∈ nodes, ∀ n' ∈ nodes, ∀ i j, i < c.solutionDim → j < c.solutionDim → ∀ lane,
      (m.rows.map Prod.fst)[c.solutionDim * n + i]? = some lane →
      c.solutionDim * n' + j ∈ lane := by
  intro n h1 n' h2 i j hi hj lane hl
  rw [List.getElem?_map] at hl
  cases hr : m.rows[c.solutionDim * n + i]? with
  | none => rw [hr] at hl; cases hl
  | some row =>
    rw [hr] at hl
    cases hl
    exact h nodes hn n h1 n' h2 i j hi hj row hr

theorem samePattern_of_good (m : Csr K) (rows : List (List Nat × List K))
    (hlen : rows.length = m.rows.length) (h : AllGood (RowGood (m.rows.map Prod.fst)) rows) :
    SamePattern m ⟨m.ncols, rows⟩ := by
  refine ⟨rfl, ?_⟩
  apply List.ext_getElem?
  intro r
  by_cases hr : r < rows.length
  · have := (h r _ (List.getElem?_eq_getElem hr)).1
    rw [this, List.getElem?_map, List.getElem?_eq_getElem hr]; rfl
  · rw [List.getElem?_eq_none (by simp; omega), List.getElem?_eq_none (by simp; omega)]

theorem wf_of_good (m : Csr K) (hm : WellFormed m) (rows : List (List Nat × List K))
    (h : AllGood (RowGood (m.rows.map Prod.fst)) rows) : WellFormed (⟨m.ncols, rows⟩ : Csr K) := by
  intro row hr
  obtain ⟨r, hr', rfl⟩ := List.getElem_of_mem hr
  have := h r _ (List.getElem?_eq_getElem hr')
  exact ⟨this.2, lanes_of_wf m hm _ (List.mem_of_getElem? this.1)⟩

theorem obsAt_entry (m : Csr K) (r c : Nat) : obsAt rowEntry m.rows (r, c) = entry m r c := by
  unfold obsAt entry
  cases m.rows[r]? <;> rfl

/-- The zero matrix of a valid pattern. -/
theorem zeros_spec (p : CsrPattern) (hp : ValidPattern p) :
    ∃ m : Csr K, Csr.zeros p = some m ∧ WellFormed m ∧ m.rows.length = p.nrows ∧
      m.ncols = p.ncols ∧ (∀ r, r < p.nrows → ∃ lane, p.lane r = some lane ∧
        (m.rows[r]?).map Prod.fst = some lane) ∧ ∀ r c, entry m r c = 0 := by
  obtain ⟨lanes, h1⟩ : ∃ lanes, (List.range p.nrows).mapM p.lane = some lanes := by
    have : ∀ i ∈ List.range p.nrows, ∃ l, p.lane i = some l := by
      intro i hi
      obtain ⟨l, hl, -⟩ := hp.lanes i (by simpa using hi)
      exact ⟨l, hl⟩
    generalize List.range p.nrows = L at this
    induction L with
    | nil => exact ⟨[], rfl⟩
    | cons a L ih =>
      obtain ⟨l, hl⟩ := this a (by simp)
      obtain ⟨ls, hls⟩ := ih (fun i hi => this i (by simp [hi]))
      exact ⟨l :: ls, by simp [List.mapM_cons, hl, hls]⟩
  have h2 : ∀ r, r < p.nrows → lanes[r]? = p.lane r := by
    have key : ∀ (L : List Nat) (lanes : List (List Nat)), L.mapM p.lane = some lanes →
        lanes.length = L.length ∧ ∀ (r i : Nat), L[r]? = some i → lanes[r]? = p.lane i := by
      intro L
      induction L with
      | nil => intro lanes h; cases h; simp
      | cons a L ih =>
        intro lanes h
        rw [List.mapM_cons] at h
        cases ha : p.lane a with
        | none => rw [ha] at h; cases h
        | some l =>
          rw [ha] at h
          cases hL : L.mapM p.lane with
          | none => rw [hL] at h; cases h
          | some ls =>
            rw [hL] at h
            cases h
            obtain ⟨e1, e2⟩ := ih ls hL
            refine ⟨by simp [e1], ?_⟩
            intro r i hr
            cases r with
            | zero => simp at hr; subst hr; simp [ha]
            | succ r => simp at hr; simpa using e2 r i hr
    intro r hr
    exact (key _ _ h1).2 r r (List.getElem?_range hr)
  have hlen : lanes.length = p.nrows := by
    have key : ∀ (L : List Nat) (lanes : List (List Nat)), L.mapM p.lane = some lanes →
        lanes.length = L.length := by
      intro L
      induction L with
      | nil => intro lanes h; cases h; rfl
      | cons a L ih =>
        intro lanes h
        rw [List.mapM_cons] at h
        cases ha : p.lane a with
        | none => rw [ha] at h; cases h
        | some l =>
          rw [ha] at h
          cases hL : L.mapM p.lane with
          | none => rw [hL] at h; cases h
          | some ls => rw [hL] at h; cases h; simp [ih ls hL]
    simpa using key _ _ h1
  refine ⟨⟨p.ncols, lanes.map (fun l => (l, List.replicate l.length 0))⟩, ?_, ?_, by simp [hlen], rfl,
    ?_, ?_⟩
  · unfold Csr.zeros; rw [h1]; rfl
  · intro row hr
    obtain ⟨l, hl, rfl⟩ := List.mem_map.1 hr
    refine ⟨by simp, ?_⟩
    obtain ⟨r, hrl, rfl⟩ := List.getElem_of_mem hl
    have h3 := h2 r (by omega)
    rw [List.getElem?_eq_getElem hrl] at h3
    obtain ⟨lane, h4, h5, -⟩ := hp.lanes r (by omega)
    rw [h4] at h3
    rw [Option.some.inj h3]; exact h5
  · intro r hr
    obtain ⟨lane, h4, -⟩ := hp.lanes r hr
    refine ⟨lane, h4, ?_⟩
    simp [h2 r hr, h4]
  · intro r c
    unfold entry
    simp only [List.getElem?_map]
    cases lanes[r]? with
    | none => rfl
    | some l =>
      simp only [Option.map_some, rowEntry]
      cases hf : (l.zip (List.replicate l.length (0 : K))).find? (fun p => p.1 == c) with
      | none => rfl
      | some q =>
        have := List.mem_of_find?_eq_some hf
        obtain ⟨x, y⟩ := q
        exact (List.mem_replicate.1 (List.of_mem_zip this).2).2

end Assembly
end Fenris
