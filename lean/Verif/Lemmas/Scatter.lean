import Verif.Model.Assembly
import Mathlib.Algebra.BigOperators.Group.Finset.Basic
import Mathlib.Algebra.BigOperators.Group.Finset.Piecewise
import Mathlib.Algebra.BigOperators.Intervals
import Mathlib.Algebra.BigOperators.Group.List.Basic
/-! # Additive updates of a row storage, serially and by concurrent workers -/
set_option autoImplicit false
set_option linter.unusedSectionVars false

namespace Fenris
namespace Assembly

section
variable {K : Type} [AddCommMonoid K]

theorem foldlM_add {σ τ X : Type} (Inv : σ → Prop) (val : σ → X → K) (step : σ → τ → Option σ)
    (d : τ → X → K) (l : List τ)
    (h : ∀ t ∈ l, ∀ st, Inv st → ∃ st', step st t = some st' ∧ Inv st' ∧
      ∀ x, val st' x = val st x + d t x) :
    ∀ st, Inv st → ∃ st', l.foldlM step st = some st' ∧ Inv st' ∧
      ∀ x, val st' x = val st x + (l.map (fun t => d t x)).sum := by
  induction l with
  | nil => intro st hst; exact ⟨st, rfl, hst, fun x => by simp⟩
  | cons t l ih =>
    intro st hst
    obtain ⟨st1, h1, h2, h3⟩ := h t (by simp) st hst
    obtain ⟨st2, h4, h5, h6⟩ := ih (fun t ht => h t (by simp [ht])) st1 h2
    refine ⟨st2, ?_, h5, ?_⟩
    · rw [List.foldlM_cons, h1]; exact h4
    · intro x; rw [h6, h3]; simp [add_assoc]

theorem sum_map_range (s : Nat) (f : Nat → K) :
    ((List.range s).map f).sum = ∑ i ∈ Finset.range s, f i := by
  induction s with
  | zero => simp
  | succ s ih => rw [List.range_succ, List.map_append, List.sum_append, ih, Finset.sum_range_succ]; simp

theorem sum_map_getD {α : Type} (l : List α) (d : α) (f : α → K) :
    (l.map f).sum = ∑ a ∈ Finset.range l.length, f (l[a]?.getD d) := by
  induction l with
  | nil => simp
  | cons x l ih => rw [List.length_cons, Finset.sum_range_succ', List.map_cons, List.sum_cons, ih, add_comm]; simp

theorem sum_zipIdx (l : List Nat) (f : Nat × Nat → K) :
    (l.zipIdx.map f).sum = ∑ a ∈ Finset.range l.length, f (l[a]?.getD 0, a) := by
  rw [sum_map_getD _ (0, 0)]
  simp only [List.length_zipIdx]
  apply Finset.sum_congr rfl
  intro a ha
  have ha : a < l.length := by simpa using ha
  simp [List.getElem?_eq_getElem ha]

end

section
variable {ρ Ω K : Type} [AddCommMonoid K]

/-- The observation of row `r` (zero if there is no such row). -/
def obsAt (obs : ρ → Ω → K) (rows : List ρ) (x : Nat × Ω) : K :=
  match rows[x.1]? with
  | none => 0
  | some row => obs row x.2

def AllGood (Good : Nat → ρ → Prop) (rows : List ρ) : Prop :=
  ∀ r row, rows[r]? = some row → Good r row

/-- `upd` adds `δ` to the observations of the rows of the nodes. -/
def UpdOk (obs : ρ → Ω → K) (Good : Nat → ρ → Prop) (s : Nat) (nodes : List Nat)
    (upd : Nat → Nat → ρ → Option ρ) (δ : Nat → Nat → Ω → K) : Prop :=
  ∀ a n, nodes[a]? = some n → ∀ i, i < s → ∀ row, Good (s * n + i) row →
    ∃ row', upd a i row = some row' ∧ Good (s * n + i) row' ∧ ∀ ω, obs row' ω = obs row ω + δ a i ω

/-- Total added by local node `a` (global node `n`) at observation `x`. -/
def nodeSum (s : Nat) (n : Nat) (δ : Nat → Ω → K) (x : Nat × Ω) : K :=
  ∑ i ∈ Finset.range s, if s * n + i = x.1 then δ i x.2 else 0

/-- Total added by an element. -/
def elemSum (s : Nat) (nodes : List Nat) (δ : Nat → Nat → Ω → K) (x : Nat × Ω) : K :=
  ∑ a ∈ Finset.range nodes.length, nodeSum s (nodes[a]?.getD 0) (δ a) x

theorem obsAt_set (obs : ρ → Ω → K) (rows : List ρ) (p : Nat) (row row' : ρ) (δ : Ω → K)
    (h : rows[p]? = some row) (hobs : ∀ ω, obs row' ω = obs row ω + δ ω) (x : Nat × Ω) :
    obsAt obs (rows.set p row') x = obsAt obs rows x + if p = x.1 then δ x.2 else 0 := by
  obtain ⟨r, ω⟩ := x
  simp only [obsAt]
  by_cases hp : p = r
  · subst hp
    have hlt : p < rows.length := by
      by_contra hc; rw [List.getElem?_eq_none (by omega)] at h; cases h
    rw [List.getElem?_set_self hlt, h, if_pos rfl]
    exact hobs ω
  · simp [hp]

theorem AllGood.set {Good : Nat → ρ → Prop} {rows : List ρ} (h : AllGood Good rows) (p : Nat)
    (row : ρ) (hrow : Good p row) : AllGood Good (rows.set p row) := by
  intro r row' hr
  by_cases hp : p = r
  · subst hp
    rw [List.getElem?_set] at hr
    split at hr
    · split at hr
      · cases hr; exact hrow
      · cases hr
    · exact h _ _ hr
  · rw [List.getElem?_set_ne hp] at hr; exact h _ _ hr

/-- One node, on the flat storage. -/
theorem scatterNode_spec (obs : ρ → Ω → K) (Good : Nat → ρ → Prop) (s : Nat) (N : Nat)
    (upd : Nat → Nat → ρ → Option ρ) (δ : Nat → Nat → Ω → K) (nodes : List Nat)
    (hu : UpdOk obs Good s nodes upd δ) (p : Nat × Nat) (hp : nodes[p.2]? = some p.1)
    (hN : p.1 < N) (rows : List ρ) (hrows : rows.length = s * N ∧ AllGood Good rows) :
    ∃ rows', scatterNode s upd rows p = some rows' ∧ (rows'.length = s * N ∧ AllGood Good rows') ∧
      ∀ x, obsAt obs rows' x = obsAt obs rows x + nodeSum s p.1 (δ p.2) x := by
  obtain ⟨rows', h1, h2, h3⟩ := foldlM_add (fun rows : List ρ => rows.length = s * N ∧ AllGood Good rows)
    (obsAt obs) (fun rows i =>
      match rows[s * p.1 + i]? with
      | none => none
      | some row => (upd p.2 i row).map (rows.set (s * p.1 + i)))
    (fun i x => if s * p.1 + i = x.1 then δ p.2 i x.2 else 0) (List.range s) (by
      intro i hi st hst
      have hi : i < s := by simpa using hi
      have hlt : s * p.1 + i < st.length := by
        rw [hst.1]
        have : s * p.1 + s ≤ s * N := by
          rw [← Nat.mul_succ]; exact Nat.mul_le_mul (Nat.le_refl _) hN
        omega
      obtain ⟨row', h1, h2, h3⟩ := hu p.2 p.1 hp i hi st[s * p.1 + i]
        (hst.2 _ _ (List.getElem?_eq_getElem hlt))
      refine ⟨st.set (s * p.1 + i) row', ?_, ⟨by simpa using hst.1, hst.2.set _ _ h2⟩, ?_⟩
      · simp only [List.getElem?_eq_getElem hlt, h1]; rfl
      · intro x
        exact obsAt_set obs st _ _ row' (δ p.2 i) (List.getElem?_eq_getElem hlt) h3 x) rows hrows
  refine ⟨rows', h1, h2, ?_⟩
  intro x
  rw [h3, sum_map_range]
  rfl

theorem mem_zipIdx_get (nodes : List Nat) (p : Nat × Nat) (h : p ∈ nodes.zipIdx) :
    nodes[p.2]? = some p.1 := by
  obtain ⟨n, a⟩ := p
  have := List.mk_mem_zipIdx_iff_getElem?.1 h
  exact this

/-- One element, on the flat storage. -/
theorem scatter_spec (obs : ρ → Ω → K) (Good : Nat → ρ → Prop) (s : Nat) (N : Nat)
    (upd : Nat → Nat → ρ → Option ρ) (δ : Nat → Nat → Ω → K) (nodes : List Nat)
    (hu : UpdOk obs Good s nodes upd δ)
    (hN : ∀ n ∈ nodes, n < N) (rows : List ρ) (hrows : rows.length = s * N ∧ AllGood Good rows) :
    ∃ rows', scatter s upd rows nodes = some rows' ∧ (rows'.length = s * N ∧ AllGood Good rows') ∧
      ∀ x, obsAt obs rows' x = obsAt obs rows x + elemSum s nodes δ x := by
  obtain ⟨rows', h1, h2, h3⟩ := foldlM_add (fun rows : List ρ => rows.length = s * N ∧ AllGood Good rows)
    (obsAt obs) (scatterNode s upd) (fun p x => nodeSum s p.1 (δ p.2) x) nodes.zipIdx (by
      intro p hp st hst
      have := mem_zipIdx_get nodes p hp
      exact scatterNode_spec obs Good s N upd δ nodes hu p this
        (hN _ (List.mem_of_getElem? this)) st hst) rows hrows
  refine ⟨rows', h1, h2, ?_⟩
  intro x
  rw [h3, sum_zipIdx]
  rfl

/-- The serial loop over elements that all succeed, followed by `rest`. -/
theorem elementsLoop_ok {E V : Type} (obs : ρ → Ω → K) (Good : Nat → ρ → Prop) (s : Nat) (N : Nat)
    (elem : Nat → Except E V) (upd : V → List Nat → Nat → Nat → ρ → Option ρ)
    (val : Nat → V) (δ : V → List Nat → Nat → Nat → Ω → K) (rest : List (List Nat)) :
    ∀ (l : List (List Nat)) (k : Nat) (rows : List ρ),
    (∀ j nodes, l[j]? = some nodes → elem (k + j) = .ok (val (k + j))) →
    (∀ j nodes, l[j]? = some nodes →
      UpdOk obs Good s nodes (upd (val (k + j)) nodes) (δ (val (k + j)) nodes)) →
    (∀ nodes ∈ l, ∀ n ∈ nodes, n < N) → (rows.length = s * N ∧ AllGood Good rows) →
    ∃ rows', elementsLoop s elem upd (l ++ rest) k rows =
        elementsLoop s elem upd rest (k + l.length) rows' ∧
      (rows'.length = s * N ∧ AllGood Good rows') ∧
      ∀ x, obsAt obs rows' x = obsAt obs rows x +
        ∑ j ∈ Finset.range l.length,
          elemSum s (l[j]?.getD []) (δ (val (k + j)) (l[j]?.getD [])) x := by
  intro l
  induction l with
  | nil => intro k rows _ _ _ h; exact ⟨rows, by simp, h, by simp⟩
  | cons nodes l ih =>
    intro k rows h1 h2 h3 h4
    obtain ⟨rows1, e1, e2, e3⟩ := scatter_spec obs Good s N _ _ nodes (h2 0 nodes rfl)
      (h3 nodes (by simp)) rows h4
    obtain ⟨rows2, e4, e5, e6⟩ := ih (k + 1) rows1
      (by intro j n hj; have := h1 (j + 1) n (by simpa using hj)
          rwa [show k + (j + 1) = k + 1 + j by omega] at this)
      (by intro j n hj; have := h2 (j + 1) n (by simpa using hj)
          rwa [show k + (j + 1) = k + 1 + j by omega] at this)
      (fun n hn => h3 n (by simp [hn])) e2
    refine ⟨rows2, ?_, e5, ?_⟩
    · rw [List.cons_append, elementsLoop]
      have := h1 0 nodes rfl
      rw [Nat.add_zero] at this e1
      rw [this]
      simp only [e1, e4, List.length_cons]
      congr 1; omega
    · intro x
      rw [e6, e3, List.length_cons, Finset.sum_range_succ', add_assoc]
      congr 1
      rw [add_comm]
      simp [Nat.add_comm, Nat.add_left_comm]

/-! ## Blocks -/

/-- Observation through blocks. -/
def obsB (s : Nat) (obs : ρ → Ω → K) (blocks : List (List ρ)) (x : Nat × Ω) : K :=
  match blocks[x.1 / s]? with
  | none => 0
  | some b => obsAt obs b (x.1 % s, x.2)

/-- Block sizes and rows are as required. -/
def BlocksGood (s N : Nat) (Good : Nat → ρ → Prop) (blocks : List (List ρ)) : Prop :=
  blocks.length = N ∧ ∀ (I : Nat) (b : List ρ), blocks[I]? = some b → b.length = s ∧
    AllGood (fun i => Good (s * I + i)) b

theorem flatten_length_uniform (s : Nat) (blocks : List (List ρ)) (h : ∀ b ∈ blocks, b.length = s) :
    blocks.flatten.length = s * blocks.length := by
  induction blocks with
  | nil => simp
  | cons b l ih =>
    rw [List.flatten_cons, List.length_append, ih (fun b hb => h b (by simp [hb])), h b (by simp),
      List.length_cons, Nat.mul_succ, Nat.add_comm]

theorem flatten_get_uniform (s : Nat) (blocks : List (List ρ)) (h : ∀ b ∈ blocks, b.length = s)
    (I i : Nat) (hi : i < s) :
    blocks.flatten[s * I + i]? = (blocks[I]?).bind (fun b => b[i]?) := by
  induction blocks generalizing I with
  | nil => simp
  | cons b l ih =>
    have hb := h b (by simp)
    rw [List.flatten_cons]
    cases I with
    | zero =>
      rw [Nat.mul_zero, Nat.zero_add, List.getElem?_append_left (by omega)]; simp
    | succ I =>
      rw [List.getElem?_append_right (by rw [hb, Nat.mul_succ]; omega), hb,
        show s * (I + 1) + i - s = s * I + i by rw [Nat.mul_succ]; omega,
        ih (fun b hb => h b (by simp [hb]))]
      simp

theorem obsAt_flatten (s : Nat) (hs : 0 < s) (obs : ρ → Ω → K) (blocks : List (List ρ))
    (h : ∀ b ∈ blocks, b.length = s) (x : Nat × Ω) :
    obsAt obs blocks.flatten x = obsB s obs blocks x := by
  obtain ⟨r, ω⟩ := x
  have := flatten_get_uniform s blocks h (r / s) (r % s) (Nat.mod_lt _ hs)
  rw [Nat.div_add_mod] at this
  simp only [obsAt, obsB, this]
  cases blocks[r / s]? with
  | none => rfl
  | some b => rfl

theorem toBlocks_spec (s N : Nat) (hs : 0 < s) (Good : Nat → ρ → Prop) (rows : List ρ)
    (h : rows.length = s * N ∧ AllGood Good rows) :
    ∃ blocks, toBlocks s rows = some blocks ∧ BlocksGood s N Good blocks ∧
      blocks.flatten = rows := by
  have hmod : s > 0 ∧ rows.length % s = 0 := ⟨hs, by rw [h.1]; simp⟩
  have hlen : (BlockAdapter.mk rows.length s).len = N := by
    simp [BlockAdapter.len, h.1, Nat.mul_div_cancel_left _ hs]
  have hb : toBlocks s rows = some ((List.range N).map (fun b => (rows.drop (s * b)).take s)) := by
    unfold toBlocks BlockAdapter.withBlockSize
    rw [if_pos hmod]
    simp only [hlen]
  have hbound : ∀ I, I < N → s * I + s ≤ s * N := by
    intro I hI; rw [← Nat.mul_succ]; exact Nat.mul_le_mul (Nat.le_refl _) hI
  have hgood : BlocksGood s N Good ((List.range N).map (fun b => (rows.drop (s * b)).take s)) := by
    refine ⟨by simp, ?_⟩
    intro I b hb
    rw [List.getElem?_map] at hb
    cases hI : (List.range N)[I]? with
    | none => rw [hI] at hb; cases hb
    | some J =>
      rw [hI] at hb
      have hIN : I < N := by
        by_contra hc
        rw [List.getElem?_eq_none (by simpa using hc)] at hI; cases hI
      rw [List.getElem?_range hIN] at hI
      cases hI
      simp only [Option.map_some, Option.some.injEq] at hb
      subst hb
      have := hbound I hIN
      refine ⟨by simp [h.1]; omega, ?_⟩
      intro i row hi
      rw [List.getElem?_take] at hi
      split at hi
      · rw [List.getElem?_drop] at hi
        exact h.2 _ _ hi
      · cases hi
  refine ⟨_, hb, hgood, ?_⟩
  have huni : ∀ b ∈ (List.range N).map (fun b => (rows.drop (s * b)).take s), b.length = s := by
    intro b hb
    obtain ⟨I, hI, rfl⟩ := List.getElem_of_mem hb
    exact (hgood.2 I _ (List.getElem?_eq_getElem hI)).1
  apply List.ext_getElem?
  intro r
  by_cases hr : r < s * N
  · have hd : r / s < N := Nat.div_lt_of_lt_mul hr
    have := flatten_get_uniform s _ huni (r / s) (r % s) (Nat.mod_lt _ hs)
    rw [Nat.div_add_mod] at this
    rw [this, List.getElem?_map, List.getElem?_range hd]
    simp only [Option.map_some, Option.bind_some]
    rw [List.getElem?_take, if_pos (Nat.mod_lt _ hs), List.getElem?_drop, Nat.div_add_mod]
  · rw [List.getElem?_eq_none, List.getElem?_eq_none]
    · rw [h.1]; omega
    · rw [flatten_length_uniform s _ huni]; simp; omega

theorem div_mod_iff (s I i r : Nat) (hi : i < s) : s * I + i = r ↔ (I = r / s ∧ i = r % s) := by
  constructor
  · rintro rfl
    constructor
    · rw [Nat.mul_add_div (by omega), Nat.div_eq_of_lt hi]; rfl
    · rw [Nat.mul_add_mod, Nat.mod_eq_of_lt hi]
  · rintro ⟨rfl, rfl⟩; exact Nat.div_add_mod _ _

/-- One node, in its block. -/
theorem updBlock_spec (obs : ρ → Ω → K) (Good : Nat → ρ → Prop) (s : Nat)
    (upd : Nat → Nat → ρ → Option ρ) (δ : Nat → Nat → Ω → K) (nodes : List Nat)
    (hu : UpdOk obs Good s nodes upd δ) (a n : Nat) (ha : nodes[a]? = some n)
    (blocks : List (List ρ)) (N : Nat) (hb : BlocksGood s N Good blocks) (hn : n < N) :
    ∃ block block', blocks[n]? = some block ∧ updBlock s (upd a) block = some block' ∧
      BlocksGood s N Good (blocks.set n block') ∧
      ∀ x, obsB s obs (blocks.set n block') x = obsB s obs blocks x + nodeSum s n (δ a) x := by
  have hlt : n < blocks.length := by rw [hb.1]; exact hn
  have hget := List.getElem?_eq_getElem hlt
  obtain ⟨hl, hg⟩ := hb.2 n _ hget
  obtain ⟨block', h1, h2, h3⟩ := foldlM_add
    (fun b : List ρ => b.length = s ∧ AllGood (fun i => Good (s * n + i)) b)
    (obsAt obs) (fun (block : List ρ) i =>
      match block[i]? with
      | none => none
      | some row => (upd a i row).map (block.set i))
    (fun i x => if i = x.1 then δ a i x.2 else 0) (List.range s) (by
      intro i hi st hst
      have hi : i < s := by simpa using hi
      have hlt : i < st.length := by rw [hst.1]; exact hi
      obtain ⟨row', h1, h2, h3⟩ := hu a n ha i hi st[i] (hst.2 _ _ (List.getElem?_eq_getElem hlt))
      refine ⟨st.set i row', ?_, ⟨by simpa using hst.1, hst.2.set _ _ h2⟩, ?_⟩
      · simp only [List.getElem?_eq_getElem hlt, h1]; rfl
      · intro x
        exact obsAt_set obs st _ _ row' (δ a i) (List.getElem?_eq_getElem hlt) h3 x)
    blocks[n] ⟨hl, hg⟩
  refine ⟨blocks[n], block', hget, h1, ⟨by simpa using hb.1, ?_⟩, ?_⟩
  · intro I b hI
    by_cases hIn : n = I
    · subst hIn
      rw [List.getElem?_set_self hlt] at hI
      cases hI; exact h2
    · rw [List.getElem?_set_ne hIn] at hI; exact hb.2 I b hI
  · rintro ⟨r, ω⟩
    have hsum : nodeSum s n (δ a) (r, ω) =
        if n = r / s then (((List.range s).map (fun i => if i = r % s then δ a i ω else 0)).sum)
        else 0 := by
      rw [sum_map_range]
      unfold nodeSum
      split
      · rename_i hnr
        apply Finset.sum_congr rfl
        intro i hi
        have hi : i < s := by simpa using hi
        have := div_mod_iff s n i r hi
        by_cases h : i = r % s
        · rw [if_pos h, if_pos (this.2 ⟨hnr, h⟩)]
        · rw [if_neg h, if_neg (fun hc => h (this.1 hc).2)]
      · rename_i hnr
        apply Finset.sum_eq_zero
        intro i hi
        have hi : i < s := by simpa using hi
        simp only [div_mod_iff s n i r hi, hnr, false_and, if_false]
    rw [hsum]
    simp only [obsB]
    by_cases hnr : n = r / s
    · subst hnr
      rw [List.getElem?_set_self hlt, hget, if_pos rfl]
      exact h3 (r % s, ω)
    · rw [List.getElem?_set_ne hnr, if_neg hnr, add_zero]

/-! ## Concurrent workers -/

/-- What is left to be added when worker `k` has handled `pos k` of its nodes. -/
def remaining (s : Nat) (subs : List (List Nat)) (δ : Nat → Nat → Nat → Ω → K) (pos : Nat → Nat)
    (x : Nat × Ω) : K :=
  ∑ k ∈ Finset.range subs.length, ∑ a ∈ Finset.Ico (pos k) ((subs[k]?.getD []).length),
    nodeSum s ((subs[k]?.getD [])[a]?.getD 0) (δ k a) x

theorem remaining_step (s : Nat) (subs : List (List Nat)) (δ : Nat → Nat → Nat → Ω → K)
    (pos : Nat → Nat) (x : Nat × Ω) (k : Nat) (hk : k < subs.length)
    (hpos : pos k < (subs[k]?.getD []).length) :
    remaining s subs δ pos x = nodeSum s ((subs[k]?.getD [])[pos k]?.getD 0) (δ k (pos k)) x +
      remaining s subs δ (Function.update pos k (pos k + 1)) x := by
  unfold remaining
  have hk' : k ∈ Finset.range subs.length := by simpa using hk
  rw [← Finset.add_sum_erase _ _ hk']
  rw [← Finset.add_sum_erase (Finset.range subs.length)
    (fun j => ∑ a ∈ Finset.Ico (Function.update pos k (pos k + 1) j) ((subs[j]?.getD []).length),
      nodeSum s ((subs[j]?.getD [])[a]?.getD 0) (δ j a) x) hk']
  rw [← add_assoc]
  congr 1
  · rw [Finset.sum_eq_sum_Ico_succ_bot hpos]
    simp
  · apply Finset.sum_congr rfl
    intro j hj
    rw [Function.update_of_ne (Finset.ne_of_mem_erase hj)]

theorem exec_spec (obs : ρ → Ω → K) (Good : Nat → ρ → Prop) (s : Nat) (N : Nat)
    (subs : List (List Nat)) (upd : Nat → Nat → Nat → ρ → Option ρ)
    (δ : Nat → Nat → Nat → Ω → K)
    (hu : ∀ k nodes, subs[k]? = some nodes → UpdOk obs Good s nodes (upd k) (δ k))
    (hN : ∀ nodes ∈ subs, ∀ n ∈ nodes, n < N) (sched : List Nat) :
    ∀ (blocks : List (List ρ)) (pos : Nat → Nat), BlocksGood s N Good blocks →
    (∀ k, pos k ≤ (subs[k]?.getD []).length) →
    ∃ blocks' pos', ParState.exec subs
        (fun k => scatterWorker s ((subs[k]?.getD []).length) (upd k))
        ⟨blocks, (List.range subs.length).map (fun k => some (some (pos k)))⟩ sched =
        some ⟨blocks', (List.range subs.length).map (fun k => some (some (pos' k)))⟩ ∧
      BlocksGood s N Good blocks' ∧
      (∀ k, pos' k ≤ (subs[k]?.getD []).length) ∧
      (∀ k, k < subs.length → pos' k = min ((subs[k]?.getD []).length) (pos k + sched.count k)) ∧
      ∀ x, obsB s obs blocks' x + remaining s subs δ pos' x =
        obsB s obs blocks x + remaining s subs δ pos x := by
  induction sched with
  | nil =>
    intro blocks pos hb hp
    refine ⟨blocks, pos, rfl, hb, hp, ?_, fun x => rfl⟩
    intro k _
    have := hp k
    simp; omega
  | cons k sched ih =>
    intro blocks pos hb hp
    rw [ParState.exec, List.foldlM_cons]
    by_cases hk : k < subs.length
    · have hsub := List.getElem?_eq_getElem hk
      by_cases hlt : pos k < (subs[k]?.getD []).length
      · -- a real step
        have hlt' : pos k < subs[k].length := by simpa [hsub] using hlt
        have hget : subs[k][pos k]? = some subs[k][pos k] := List.getElem?_eq_getElem hlt'
        obtain ⟨block, block', h1, h2, h3, h4⟩ := updBlock_spec obs Good s (upd k) (δ k) subs[k]
          (hu k _ hsub) (pos k) _ hget blocks N hb
          (hN _ (List.getElem_mem hk) _ (List.getElem_mem hlt'))
        have hstep : ParState.step subs
            (fun k => scatterWorker s ((subs[k]?.getD []).length) (upd k))
            ⟨blocks, (List.range subs.length).map (fun k => some (some (pos k)))⟩ k =
            some ⟨blocks.set subs[k][pos k] block',
              (List.range subs.length).map
                (fun j => some (some (Function.update pos k (pos k + 1) j)))⟩ := by
          unfold ParState.step
          rw [List.getElem?_map, List.getElem?_range hk, hsub]
          simp only [Option.map_some, scatterWorker, Option.getD_some, hsub, hlt', if_true, hget, h1, h2,
            Option.some.injEq, ParState.mk.injEq, true_and]
          apply List.ext_getElem?
          intro j
          rw [List.getElem?_set]
          by_cases hj : k = j
          · subst hj
            simp [hk]
          · rw [if_neg hj, List.getElem?_map, List.getElem?_map]
            by_cases hjl : j < subs.length
            · rw [List.getElem?_range hjl]
              simp [Function.update_of_ne (Ne.symm hj)]
            · rw [List.getElem?_eq_none (by simpa using hjl)]; rfl
        rw [hstep]
        obtain ⟨blocks', pos', e1, e2, e3, e4, e5⟩ := ih _ (Function.update pos k (pos k + 1)) h3 (by
          intro j
          by_cases hj : j = k
          · subst hj; simp only [Function.update_self]; omega
          · rw [Function.update_of_ne hj]; exact hp j)
        refine ⟨blocks', pos', e1, e2, e3, ?_, ?_⟩
        · intro j hj
          rw [e4 j hj]
          by_cases hjk : j = k
          · subst hjk; simp only [Function.update_self, List.count_cons_self]; omega
          · rw [Function.update_of_ne hjk, List.count_cons_of_ne (Ne.symm hjk)]
        · intro x
          rw [e5, h4, remaining_step s subs δ pos x k hk hlt, add_assoc]
          simp [hsub, hget]
      · have hstep : ParState.step subs
            (fun k => scatterWorker s ((subs[k]?.getD []).length) (upd k))
            ⟨blocks, (List.range subs.length).map (fun k => some (some (pos k)))⟩ k =
            some ⟨blocks, (List.range subs.length).map (fun k => some (some (pos k)))⟩ := by
          unfold ParState.step
          rw [List.getElem?_map, List.getElem?_range hk, hsub]
          simp only [Option.map_some, scatterWorker, hlt, if_false]
        rw [hstep]
        obtain ⟨blocks', pos', e1, e2, e3, e4, e5⟩ := ih blocks pos hb hp
        refine ⟨blocks', pos', e1, e2, e3, ?_, e5⟩
        intro j hj
        rw [e4 j hj]
        by_cases hjk : j = k
        · subst hjk; rw [List.count_cons_self]; have := hp j; omega
        · rw [List.count_cons_of_ne (Ne.symm hjk)]
    · have hstep : ParState.step subs
          (fun k => scatterWorker s ((subs[k]?.getD []).length) (upd k))
          ⟨blocks, (List.range subs.length).map (fun k => some (some (pos k)))⟩ k =
          some ⟨blocks, (List.range subs.length).map (fun k => some (some (pos k)))⟩ := by
        unfold ParState.step
        rw [List.getElem?_map, List.getElem?_eq_none (l := List.range _) (by simpa using hk)]
        rfl
      rw [hstep]
      obtain ⟨blocks', pos', e1, e2, e3, e4, e5⟩ := ih blocks pos hb hp
      refine ⟨blocks', pos', e1, e2, e3, ?_, e5⟩
      intro j hj
      rw [e4 j hj, List.count_cons_of_ne (by rintro rfl; exact hk hj)]

end
end Assembly
end Fenris
