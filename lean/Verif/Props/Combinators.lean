import Verif.Spec.Combinators
import Verif.Spec.Dirichlet
import Verif.Props.Aggregate
import Verif.Props.MapNodes
/-! # C100: combined and transformed element assemblers -/
set_option autoImplicit false
set_option linter.unusedSectionVars false

namespace Fenris.Combinators
open Fenris.Assembly Fenris.Spec Fenris.Combinators.Spec

variable {E K : Type}

/-! ## Sums over the elements of an assembler -/

def okOr {α : Type} (d : α) : Option (Except E α) → α
  | some (.ok x) => x
  | _ => d

theorem answer_okOr {α : Type} (d : α) (o : Option (Except E α)) (h : ∃ x, o = some (.ok x)) :
    answer o = .ok (okOr d o) := by
  obtain ⟨x, rfl⟩ := h; rfl

private theorem mapM_some {α β : Type} (l : List α) (q : α → Option β) (g : α → β) (h : ∀ x ∈ l, q x = some (g x)) :
    l.mapM q = some (l.map g) := by
  induction l with
  | nil => rfl
  | cons x l ih =>
    rw [List.mapM_cons, h x (by simp), ih (fun y hy => h y (by simp [hy]))]
    rfl

theorem conn_eq (a : Assembler E K)
    (ha : ∀ e, e < a.numElements → ∃ l, a.nodes e = some l ∧ l.Nodup ∧ ∀ n ∈ l, n < a.numNodes) :
    a.conn = some ⟨a.solutionDim, a.numNodes, (List.range a.numElements).map fun e => (a.nodes e).getD []⟩ := by
  unfold Assembler.conn
  rw [mapM_some _ _ (fun e => (a.nodes e).getD []) (fun e he => by
    obtain ⟨l, hl, _⟩ := ha e (List.mem_range.1 he)
    rw [hl]; rfl)]
  rfl

theorem inBounds (a : Assembler E K)
    (ha : ∀ e, e < a.numElements → ∃ l, a.nodes e = some l ∧ l.Nodup ∧ ∀ n ∈ l, n < a.numNodes) :
    NodesInBounds ⟨a.solutionDim, a.numNodes, (List.range a.numElements).map fun e => (a.nodes e).getD []⟩ ∧
      ∀ l ∈ (List.range a.numElements).map (fun e => (a.nodes e).getD []), l.Nodup := by
  constructor
  · intro l hl n hn
    obtain ⟨e, he, rfl⟩ := List.mem_map.1 hl
    obtain ⟨l, hl, _, h⟩ := ha e (List.mem_range.1 he)
    rw [hl] at hn
    exact h n hn
  · intro l hl
    obtain ⟨e, he, rfl⟩ := List.mem_map.1 hl
    obtain ⟨l, hl, h, _⟩ := ha e (List.mem_range.1 he)
    rw [hl]; exact h

section
variable [AddCommMonoid K]

private theorem sum_fin_map {n : Nat} (g : Nat → List Nat) (F : List Nat → Nat → K) :
    (∑ e : Fin ((List.range n).map g).length, F ((List.range n).map g)[e] e) = ∑ e ∈ Finset.range n, F (g e) e := by
  have hl : ((List.range n).map g).length = n := by simp
  rw [← Fin.sum_univ_eq_sum_range (fun e => F (g e) e) n]
  refine Fintype.sum_equiv (finCongr hl) _ _ (fun e => ?_)
  simp

theorem matrix_sum (ord : List Nat → List Nat) (hord : ∀ l, (ord l).Perm l) (sortNodes : List (Nat × Nat) → List (Nat × Nat))
    (hsort : SortsNodes sortNodes) (a : Assembler E K) (hdim : 0 < a.solutionDim) (ha : Sound a) :
    ∃ m, a.assembleMatrix ord sortNodes = some (.ok m) ∧ WellFormed m ∧ m.rows.length = a.solutionDim * a.numNodes ∧
      m.ncols = a.solutionDim * a.numNodes ∧
      (∀ r row, m.rows[r]? = some row → ∀ j, j ∈ row.1 ↔
        ∃ e, e < a.numElements ∧ r / a.solutionDim ∈ (a.nodes e).getD [] ∧ j / a.solutionDim ∈ (a.nodes e).getD []) ∧
      ∀ r c, entry m r c = ∑ e ∈ Finset.range a.numElements,
        matrixContribution a.solutionDim ((a.nodes e).getD []) (okOr (fun _ _ => 0) (a.matrix e)) r c := by
  obtain ⟨h1, h2⟩ := inBounds a ha.nodes
  obtain ⟨m, g1, g2, g3, g4, g5, g6⟩ := C21_assemble_is_sum_of_contributions ord hord sortNodes hsort _ hdim h1 h2
    (fun e => answer (a.matrix e)) (fun e => okOr (fun _ _ => 0) (a.matrix e))
    (fun e he => answer_okOr _ _ (ha.matrix e (by simpa using he)))
  refine ⟨m, ?_, g2, g3, g4, ?_, ?_⟩
  · unfold Assembler.assembleMatrix
    rw [conn_eq a ha.nodes]
    exact g1
  · intro r row hr j
    rw [g5 r row hr j]
    simp only [List.mem_map, List.mem_range]
    constructor
    · rintro ⟨_, ⟨e, he, rfl⟩, h, h'⟩
      exact ⟨e, he, h, h'⟩
    · rintro ⟨e, he, h, h'⟩
      exact ⟨_, ⟨e, he, rfl⟩, h, h'⟩
  · intro r c
    rw [g6]
    exact sum_fin_map (fun e => (a.nodes e).getD [])
      (fun l e => matrixContribution a.solutionDim l (okOr (fun _ _ => 0) (a.matrix e)) r c)

theorem vector_sum (a : Assembler E K) (ha : Sound a) :
    a.assembleVector = some (.ok ((List.range (a.solutionDim * a.numNodes)).map fun r => ∑ e ∈ Finset.range a.numElements,
        vectorContribution a.solutionDim ((a.nodes e).getD []) (okOr (fun _ => 0) (a.vector e)) r)) := by
  obtain ⟨h1, h2⟩ := inBounds a ha.nodes
  have g := C23_assemble_vector_is_sum_of_contributions _ h1
    (fun e => answer (a.vector e)) (fun e => okOr (fun _ => 0) (a.vector e))
    (fun e he => answer_okOr _ _ (ha.vector e (by simpa using he)))
  unfold Assembler.assembleVector
  rw [conn_eq a ha.nodes, Option.bind_some, g]
  congr 3
  funext r
  exact sum_fin_map (fun e => (a.nodes e).getD [])
    (fun l e => vectorContribution a.solutionDim l (okOr (fun _ => 0) (a.vector e)) r)

theorem scalar_sum (a : Assembler E K) (ha : Sound a) :
    a.assembleScalar = .ok (∑ e ∈ Finset.range a.numElements, okOr 0 (a.scalar e)) := by
  unfold Assembler.assembleScalar
  rw [C24_scalar_is_sum a.numElements (fun e => answer (a.scalar e)) (fun e => okOr 0 (a.scalar e))
    (fun e he => answer_okOr _ _ (ha.scalar e he)), Fin.sum_univ_eq_sum_range (fun e => okOr 0 (a.scalar e))]

end

/-! ## The aggregate -/

private theorem parts_spec {α : Type} (q : Assembler E K → Nat → Option α) (search : List Nat → Nat → SearchResult) (hs : BinarySearch search)
    (parts : List (Assembler E K)) (hne : parts ≠ []) (s N : Nat) (hc : ∀ p ∈ parts, p.solutionDim = s ∧ p.numNodes = N)
    (hsel : FindsLast search ∨ ∀ p ∈ parts, p.numElements ≠ 0) :
    ∃ g : Aggregate α, Aggregate.fromAssemblers (parts.map (Assembler.part q)) = some g ∧ g.solutionDim = s ∧ g.numNodes = N ∧
      g.numElements = (parts.map Assembler.numElements).sum ∧
      ∀ i p, parts[i]? = some p → ∀ k, k < p.numElements →
        g.query search (((parts.take i).map Assembler.numElements).sum + k) = q p k := by
  have hcon := C26_construction (parts.map (Assembler.part q))
  have hsome := hcon.1.2 ⟨by simpa using hne, by
    intro x hx y hy
    obtain ⟨p, hp, rfl⟩ := List.mem_map.1 hx
    obtain ⟨p', hp', rfl⟩ := List.mem_map.1 hy
    exact ⟨(hc p hp).1.trans (hc p' hp').1.symm, (hc p hp).2.trans (hc p' hp').2.symm⟩⟩
  obtain ⟨g, hg⟩ := Option.isSome_iff_exists.1 hsome
  obtain ⟨h1, h2⟩ := hcon.2 g hg
  obtain ⟨p0, hp0⟩ := List.exists_mem_of_ne_nil parts hne
  have h0 := h2 (p0.part q) (List.mem_map.2 ⟨p0, hp0, rfl⟩)
  refine ⟨g, hg, h0.1.trans (hc p0 hp0).1, h0.2.trans (hc p0 hp0).2, ?_, ?_⟩
  · rw [h1, List.map_map]; rfl
  · intro i p hp k hk
    have hb : ((parts.take i).map Assembler.numElements).sum = elementsBefore (parts.map (Assembler.part q)) i := by
      unfold elementsBefore
      rw [← List.map_take, List.map_map]; rfl
    rw [hb]
    have hp' : (parts.map (Assembler.part q))[i]? = some (p.part q) := by rw [List.getElem?_map, hp]; rfl
    rcases hsel with hl | hpos
    · exact C26_query_is_answered_by_owner_with_last_match search hs hl _ g hg i _ hp' k hk
    · exact C26_query_is_answered_by_owner_partial search hs _ (by
        intro x hx
        obtain ⟨p', hp', rfl⟩ := List.mem_map.1 hx
        exact hpos p' hp') g hg i _ hp' k hk

private theorem aggregate_spec (search : List Nat → Nat → SearchResult) (hs : BinarySearch search)
    (parts : List (Assembler E K)) (hne : parts ≠ []) (s N : Nat) (hc : ∀ p ∈ parts, p.solutionDim = s ∧ p.numNodes = N)
    (hsel : FindsLast search ∨ ∀ p ∈ parts, p.numElements ≠ 0) :
    ∃ a, aggregate search parts = some a ∧ a.solutionDim = s ∧ a.numNodes = N ∧
      a.numElements = (parts.map Assembler.numElements).sum ∧
      ∀ i p, parts[i]? = some p → ∀ k, k < p.numElements →
        a.nodes (((parts.take i).map Assembler.numElements).sum + k) = p.nodes k ∧
        a.scalar (((parts.take i).map Assembler.numElements).sum + k) = p.scalar k ∧
        a.vector (((parts.take i).map Assembler.numElements).sum + k) = p.vector k ∧
        a.matrix (((parts.take i).map Assembler.numElements).sum + k) = p.matrix k := by
  obtain ⟨n, n1, n2, n3, n4, n5⟩ := parts_spec Assembler.nodes search hs parts hne s N hc hsel
  obtain ⟨x, x1, -, -, -, x5⟩ := parts_spec Assembler.scalar search hs parts hne s N hc hsel
  obtain ⟨v, v1, -, -, -, v5⟩ := parts_spec Assembler.vector search hs parts hne s N hc hsel
  obtain ⟨m, m1, -, -, -, m5⟩ := parts_spec Assembler.matrix search hs parts hne s N hc hsel
  refine ⟨⟨n.solutionDim, n.numNodes, n.numElements, n.query search, x.query search, v.query search, m.query search⟩, ?_, n2, n3, n4, ?_⟩
  · unfold aggregate
    rw [n1, x1, v1, m1]
  · intro i p hp k hk
    exact ⟨n5 i p hp k hk, x5 i p hp k hk, v5 i p hp k hk, m5 i p hp k hk⟩

private theorem owner (parts : List (Assembler E K)) : ∀ e, e < (parts.map Assembler.numElements).sum →
    ∃ i p k, parts[i]? = some p ∧ k < p.numElements ∧ e = ((parts.take i).map Assembler.numElements).sum + k := by
  induction parts with
  | nil => intro e he; simp at he
  | cons p ps ih =>
    intro e he
    rw [List.map_cons, List.sum_cons] at he
    by_cases h : e < p.numElements
    · exact ⟨0, p, e, rfl, h, by simp⟩
    · obtain ⟨i, q, k, h1, h2, h3⟩ := ih (e - p.numElements) (by omega)
      exact ⟨i + 1, q, k, by simpa using h1, h2, by
        rw [List.take_succ_cons, List.map_cons, List.sum_cons]; omega⟩

private theorem aggregate_sound (parts : List (Assembler E K)) (a : Assembler E K) (N : Nat) (hN : a.numNodes = N)
    (hc : ∀ p ∈ parts, p.numNodes = N) (hsound : ∀ p ∈ parts, Sound p)
    (he : a.numElements = (parts.map Assembler.numElements).sum)
    (h : ∀ i p, parts[i]? = some p → ∀ k, k < p.numElements →
        a.nodes (((parts.take i).map Assembler.numElements).sum + k) = p.nodes k ∧
        a.scalar (((parts.take i).map Assembler.numElements).sum + k) = p.scalar k ∧
        a.vector (((parts.take i).map Assembler.numElements).sum + k) = p.vector k ∧
        a.matrix (((parts.take i).map Assembler.numElements).sum + k) = p.matrix k) : Sound a := by
  constructor <;> intro e hlt <;> rw [he] at hlt <;> obtain ⟨i, p, k, h1, h2, rfl⟩ := owner parts e hlt <;>
    have hp := List.mem_of_getElem? h1 <;> obtain ⟨g1, g2, g3, g4⟩ := h i p h1 k h2
  · rw [g1, hN, ← hc p hp]; exact (hsound p hp).nodes k h2
  · rw [g2]; exact (hsound p hp).scalar k h2
  · rw [g3]; exact (hsound p hp).vector k h2
  · rw [g4]; exact (hsound p hp).matrix k h2

section
variable [AddCommMonoid K]

private theorem sum_split (parts : List (Assembler E K)) : ∀ (F : Nat → K) (G : Assembler E K → Nat → K) (off : Nat),
    (∀ i p, parts[i]? = some p → ∀ k, k < p.numElements →
      F (off + (((parts.take i).map Assembler.numElements).sum + k)) = G p k) →
    ∑ e ∈ Finset.range (parts.map Assembler.numElements).sum, F (off + e) =
      (parts.map fun p => ∑ k ∈ Finset.range p.numElements, G p k).sum := by
  induction parts with
  | nil => intro F G off _; simp
  | cons p ps ih =>
    intro F G off h
    rw [List.map_cons, List.sum_cons, List.map_cons, List.sum_cons, Finset.sum_range_add]
    congr 1
    · refine Finset.sum_congr rfl (fun k hk => ?_)
      have := h 0 p rfl k (Finset.mem_range.1 hk)
      simpa using this
    · rw [← ih F G (off + p.numElements)]
      · refine Finset.sum_congr rfl (fun k _ => ?_)
        rw [Nat.add_assoc]
      · intro i q hq k hk
        rw [← h (i + 1) q (by simpa using hq) k hk, List.take_succ_cons, List.map_cons, List.sum_cons]
        congr 1
        omega

/-- Assemblers for the same nodes that are combined in an aggregate assemble to the sum of their matrices. The aggregate stores exactly the
positions that one of the parts stores. -/
theorem C100_aggregate_matrix (search : List Nat → Nat → SearchResult) (hs : BinarySearch search) (ord : List Nat → List Nat)
    (hord : ∀ l, (ord l).Perm l) (sortNodes : List (Nat × Nat) → List (Nat × Nat)) (hsort : SortsNodes sortNodes)
    (parts : List (Assembler E K)) (hne : parts ≠ []) (s N : Nat) (hdim : 0 < s) (hc : ∀ p ∈ parts, p.solutionDim = s ∧ p.numNodes = N)
    (hsound : ∀ p ∈ parts, Sound p) (hsel : FindsLast search ∨ ∀ p ∈ parts, p.numElements ≠ 0) :
    ∃ a m ms, aggregate search parts = some a ∧ a.assembleMatrix ord sortNodes = some (.ok m) ∧
      List.Forall₂ (fun p mp => p.assembleMatrix ord sortNodes = some (.ok mp)) parts ms ∧
      WellFormed m ∧ m.rows.length = s * N ∧ m.ncols = s * N ∧
      (∀ r c, entry m r c = (ms.map fun mp => entry mp r c).sum) ∧
      ∀ r c, Stored m r c ↔ ∃ mp ∈ ms, Stored mp r c := by
  obtain ⟨a, h1, h2, h3, h4, h5⟩ := aggregate_spec search hs parts hne s N hc hsel
  have ha := aggregate_sound parts a N h3 (fun p hp => (hc p hp).2) hsound h4 h5
  obtain ⟨m, g1, g2, g3, g4, g5, g6⟩ := matrix_sum ord hord sortNodes hsort a (by omega) ha
  have hall : ∀ l : List (Assembler E K), (∀ p ∈ l, p ∈ parts) → ∃ ms, List.Forall₂ (fun p mp => p.assembleMatrix ord sortNodes = some (.ok mp)) l ms ∧
      (∀ r c, (ms.map fun mp => entry mp r c).sum = (l.map fun p => ∑ k ∈ Finset.range p.numElements,
        matrixContribution s ((p.nodes k).getD []) (okOr (fun _ _ => 0) (p.matrix k)) r c).sum) ∧
      ∀ r c, (∃ mp ∈ ms, Stored mp r c) ↔ r < s * N ∧ ∃ p ∈ l, ∃ k, k < p.numElements ∧
        r / s ∈ (p.nodes k).getD [] ∧ c / s ∈ (p.nodes k).getD [] := by
    intro l
    induction l with
    | nil => intro _; exact ⟨[], List.Forall₂.nil, by simp, by simp⟩
    | cons p l ih =>
      intro hl
      obtain ⟨ms, i1, i2, i3⟩ := ih (fun q hq => hl q (by simp [hq]))
      have hp := hl p (by simp)
      obtain ⟨hps, hpn⟩ := hc p hp
      obtain ⟨mp, k1, k2, k3, k4, k5, k6⟩ := matrix_sum ord hord sortNodes hsort p (by omega) (hsound p hp)
      refine ⟨mp :: ms, List.Forall₂.cons k1 i1, ?_, ?_⟩
      · intro r c
        rw [List.map_cons, List.sum_cons, List.map_cons, List.sum_cons, i2, k6, hps]
      · intro r c
        simp only [List.mem_cons, exists_eq_or_imp, i3, and_or_left]
        refine or_congr ?_ Iff.rfl
        rw [hps] at k5 k3
        constructor
        · rintro ⟨row, hr, hcr⟩
          refine ⟨?_, (k5 r row hr c).1 hcr⟩
          have := (List.getElem?_eq_some_iff.1 hr).1
          rwa [k3, hpn] at this
        · rintro ⟨hr, h⟩
          have hr' : r < mp.rows.length := by rw [k3, hpn]; exact hr
          exact ⟨_, List.getElem?_eq_getElem hr', (k5 r _ (List.getElem?_eq_getElem hr') c).2 h⟩
  obtain ⟨ms, i1, i2, i3⟩ := hall parts (fun p hp => hp)
  rw [h2, h3] at g3 g4
  refine ⟨a, m, ms, h1, g1, i1, g2, g3, g4, ?_, ?_⟩
  · intro r c
    rw [g6, i2, h4, h2]
    have := sum_split parts (fun e => matrixContribution s ((a.nodes e).getD []) (okOr (fun _ _ => 0) (a.matrix e)) r c)
      (fun p k => matrixContribution s ((p.nodes k).getD []) (okOr (fun _ _ => 0) (p.matrix k)) r c) 0 (by
        intro i p hp k hk
        obtain ⟨q1, _, _, q4⟩ := h5 i p hp k hk
        simp only [Nat.zero_add]
        rw [q1, q4])
    simpa using this
  · intro r c
    rw [i3]
    rw [h2] at g5
    constructor
    · rintro ⟨row, hr, hcr⟩
      refine ⟨?_, ?_⟩
      · have := (List.getElem?_eq_some_iff.1 hr).1
        rwa [g3] at this
      · obtain ⟨e, he, k1, k2⟩ := (g5 r row hr c).1 hcr
        rw [h4] at he
        obtain ⟨i, p, k, o1, o2, rfl⟩ := owner parts e he
        rw [(h5 i p o1 k o2).1] at k1 k2
        exact ⟨p, List.mem_of_getElem? o1, k, o2, k1, k2⟩
    · rintro ⟨hr, p, hp, k, hk, k1, k2⟩
      have hr' : r < m.rows.length := by rw [g3]; exact hr
      obtain ⟨i, hi⟩ := List.getElem?_of_mem hp
      have hlt : ((parts.take i).map Assembler.numElements).sum + k < a.numElements := by
        rw [h4]
        have hil := (List.getElem?_eq_some_iff.1 hi).1
        have hsplit : (parts.map Assembler.numElements).sum = ((parts.take i).map Assembler.numElements).sum + (p.numElements +
            ((parts.drop (i + 1)).map Assembler.numElements).sum) := by
          conv_lhs => rw [← List.take_append_drop i parts, List.drop_eq_getElem_cons hil]
          rw [(List.getElem?_eq_some_iff.1 hi).2]
          simp
        omega
      refine ⟨_, List.getElem?_eq_getElem hr', (g5 r _ (List.getElem?_eq_getElem hr') c).2 ⟨_, hlt, ?_⟩⟩
      rw [(h5 i p hi k hk).1]
      exact ⟨k1, k2⟩

/-- … to the sum of their vectors … -/
theorem C100_aggregate_vector (search : List Nat → Nat → SearchResult) (hs : BinarySearch search)
    (parts : List (Assembler E K)) (hne : parts ≠ []) (s N : Nat) (hc : ∀ p ∈ parts, p.solutionDim = s ∧ p.numNodes = N)
    (hsound : ∀ p ∈ parts, Sound p) (hsel : FindsLast search ∨ ∀ p ∈ parts, p.numElements ≠ 0) :
    ∃ a v vs, aggregate search parts = some a ∧ a.assembleVector = some (.ok v) ∧
      List.Forall₂ (fun p vp => p.assembleVector = some (.ok vp)) parts vs ∧
      v.length = s * N ∧ (∀ vp ∈ vs, vp.length = s * N) ∧
      ∀ r, r < s * N → v[r]? = some (vs.map fun vp => vp.getD r 0).sum := by
  obtain ⟨a, h1, h2, h3, h4, h5⟩ := aggregate_spec search hs parts hne s N hc hsel
  have ha := aggregate_sound parts a N h3 (fun p hp => (hc p hp).2) hsound h4 h5
  have g := vector_sum a ha
  have hall : ∀ l : List (Assembler E K), (∀ p ∈ l, p ∈ parts) → ∃ vs : List (List K),
      List.Forall₂ (fun p vp => p.assembleVector = some (.ok vp)) l vs ∧ (∀ vp ∈ vs, vp.length = s * N) ∧
      ∀ r, r < s * N → (vs.map fun vp => vp.getD r 0).sum = (l.map fun p => ∑ k ∈ Finset.range p.numElements,
        vectorContribution s ((p.nodes k).getD []) (okOr (fun _ => 0) (p.vector k)) r).sum := by
    intro l
    induction l with
    | nil => intro _; exact ⟨[], List.Forall₂.nil, by simp, by simp⟩
    | cons p l ih =>
      intro hl
      obtain ⟨vs, i1, i2, i3⟩ := ih (fun q hq => hl q (by simp [hq]))
      have hp := hl p (by simp)
      obtain ⟨hps, hpn⟩ := hc p hp
      have k := vector_sum p (hsound p hp)
      rw [hps, hpn] at k
      refine ⟨_ :: vs, List.Forall₂.cons k i1, ?_, ?_⟩
      · intro vp hvp
        rcases List.mem_cons.1 hvp with rfl | hvp
        · simp
        · exact i2 vp hvp
      · intro r hr
        rw [List.map_cons, List.sum_cons, List.map_cons, List.sum_cons, i3 r hr]
        congr 1
        simp [List.getD, hr]
  obtain ⟨vs, i1, i2, i3⟩ := hall parts (fun p hp => hp)
  refine ⟨a, _, vs, h1, g, i1, by simp [h2, h3], i2, ?_⟩
  intro r hr
  rw [i3 r hr, h2, h3, h4, List.getElem?_map, List.getElem?_range hr, Option.map_some]
  congr 1
  have := sum_split parts (fun e => vectorContribution s ((a.nodes e).getD []) (okOr (fun _ => 0) (a.vector e)) r)
    (fun p k => vectorContribution s ((p.nodes k).getD []) (okOr (fun _ => 0) (p.vector k)) r) 0 (by
      intro i p hp k hk
      obtain ⟨q1, _, q3, _⟩ := h5 i p hp k hk
      simp only [Nat.zero_add]
      rw [q1, q3])
  simpa using this

/-- … and to the sum of their scalars. -/
theorem C100_aggregate_scalar (search : List Nat → Nat → SearchResult) (hs : BinarySearch search)
    (parts : List (Assembler E K)) (hne : parts ≠ []) (s N : Nat) (hc : ∀ p ∈ parts, p.solutionDim = s ∧ p.numNodes = N)
    (hsound : ∀ p ∈ parts, Sound p) (hsel : FindsLast search ∨ ∀ p ∈ parts, p.numElements ≠ 0) :
    ∃ a xs, aggregate search parts = some a ∧ List.Forall₂ (fun p x => p.assembleScalar = .ok x) parts xs ∧
      a.assembleScalar = .ok xs.sum := by
  obtain ⟨a, h1, h2, h3, h4, h5⟩ := aggregate_spec search hs parts hne s N hc hsel
  have ha := aggregate_sound parts a N h3 (fun p hp => (hc p hp).2) hsound h4 h5
  refine ⟨a, parts.map fun p => ∑ k ∈ Finset.range p.numElements, okOr 0 (p.scalar k), h1, ?_, ?_⟩
  · rw [List.forall₂_map_right_iff, List.forall₂_same]
    intro p hp
    exact scalar_sum p (hsound p hp)
  · rw [scalar_sum a ha, h4]
    have := sum_split parts (fun e => okOr 0 (a.scalar e)) (fun p k => okOr 0 (p.scalar k)) 0 (by
      intro i p hp k hk
      simp only [Nat.zero_add]
      rw [(h5 i p hp k hk).2.1])
    rw [← this]
    simp

/-! ## Bodies -/

private theorem before_inj {bodies : List (Assembler E K)} {i j : Nat} {b b' : Assembler E K} (hi : bodies[i]? = some b)
    (hj : bodies[j]? = some b') {n n' : Nat} (hn : n < b.numNodes) (hn' : n' < b'.numNodes)
    (h : nodesBefore bodies i + n = nodesBefore bodies j + n') : i = j ∧ n = n' := by
  have hsucc : ∀ (i : Nat) (b : Assembler E K), bodies[i]? = some b → nodesBefore bodies (i + 1) = nodesBefore bodies i + b.numNodes := by
    intro i b hi
    simp [nodesBefore, List.take_add_one, hi]
  have hmono : ∀ i j, i ≤ j → nodesBefore bodies i ≤ nodesBefore bodies j := by
    intro i j hij
    unfold nodesBefore
    rw [show j = i + (j - i) by omega, List.take_add, List.map_append, List.sum_append]
    omega
  have h1 := hsucc i b hi
  have h2 := hsucc j b' hj
  rcases Nat.lt_trichotomy i j with hlt | rfl | hgt
  · have := hmono (i + 1) j hlt; omega
  · omega
  · have := hmono (j + 1) i hgt; omega

private theorem before_lt {bodies : List (Assembler E K)} {i : Nat} {b : Assembler E K} (hi : bodies[i]? = some b) {n : Nat}
    (hn : n < b.numNodes) : nodesBefore bodies i + n < (bodies.map Assembler.numNodes).sum := by
  have hil := (List.getElem?_eq_some_iff.1 hi).1
  have hsplit : (bodies.map Assembler.numNodes).sum = ((bodies.take i).map Assembler.numNodes).sum + (b.numNodes +
      ((bodies.drop (i + 1)).map Assembler.numNodes).sum) := by
    conv_lhs => rw [← List.take_append_drop i bodies, List.drop_eq_getElem_cons hil]
    rw [(List.getElem?_eq_some_iff.1 hi).2]
    simp
  unfold nodesBefore
  omega

private theorem stacked_get {bodies : List (Assembler E K)} {i : Nat} {p : Assembler E K} (h : (stacked bodies)[i]? = some p) :
    ∃ b, bodies[i]? = some b ∧ p = b.mapNodes (bodies.map Assembler.numNodes).sum fun n => nodesBefore bodies i + n := by
  unfold stacked at h
  rw [List.getElem?_mapIdx] at h
  cases hb : bodies[i]? with
  | none => rw [hb] at h; cases h
  | some b => rw [hb] at h; cases h; exact ⟨b, rfl, rfl⟩

private theorem mapNodes_sound (b : Assembler E K) (hb : Sound b) (N : Nat) (f : Nat → Nat) (hf : ∀ n, n < b.numNodes → f n < N)
    (hinj : ∀ n n', n < b.numNodes → n' < b.numNodes → f n = f n' → n = n') : Sound (b.mapNodes N f) := by
  refine ⟨fun e he => ?_, hb.scalar, hb.vector, hb.matrix⟩
  obtain ⟨l, h1, h2, h3⟩ := hb.nodes e he
  refine ⟨l.map f, by simp [Assembler.mapNodes, h1], ?_, ?_⟩
  · exact List.Nodup.map_on (fun x hx y hy h => hinj x y (h3 x hx) (h3 y hy) h) h2
  · intro n hn
    obtain ⟨x, hx, rfl⟩ := List.mem_map.1 hn
    exact hf x (h3 x hx)

private theorem stacked_sound (bodies : List (Assembler E K)) (s : Nat) (hs : ∀ b ∈ bodies, b.solutionDim = s) (hsound : ∀ b ∈ bodies, Sound b) :
    ∀ p ∈ stacked bodies, (p.solutionDim = s ∧ p.numNodes = (bodies.map Assembler.numNodes).sum) ∧ Sound p := by
  intro p hp
  obtain ⟨i, hi⟩ := List.getElem?_of_mem hp
  obtain ⟨b, hb, rfl⟩ := stacked_get hi
  have hmem := List.mem_of_getElem? hb
  exact ⟨⟨hs b hmem, rfl⟩, mapNodes_sound b (hsound b hmem) _ _ (fun n hn => before_lt hb hn)
    (fun n n' _ _ h => Nat.add_left_cancel h)⟩

private theorem stacked_nonempty (bodies : List (Assembler E K)) (P : Prop) (h : P ∨ ∀ b ∈ bodies, b.numElements ≠ 0) :
    P ∨ ∀ p ∈ stacked bodies, p.numElements ≠ 0 := by
  rcases h with h | h
  · exact Or.inl h
  · right
    intro p hp
    obtain ⟨i, hi⟩ := List.getElem?_of_mem hp
    obtain ⟨b, hb, rfl⟩ := stacked_get hi
    exact h b (List.mem_of_getElem? hb)

/-- The nodes of all bodies together are those of the single bodies: every number below the total is the number of one node of one body. -/
theorem every_node (bodies : List (Assembler E K)) (N : Nat) (h : N < (bodies.map Assembler.numNodes).sum) :
    ∃! x : Nat × Nat, ∃ b, bodies[x.1]? = some b ∧ x.2 < b.numNodes ∧ nodesBefore bodies x.1 + x.2 = N := by
  have hex : ∀ (l : List (Assembler E K)) (N : Nat), N < (l.map Assembler.numNodes).sum →
      ∃ i n b, l[i]? = some b ∧ n < b.numNodes ∧ nodesBefore l i + n = N := by
    intro l
    induction l with
    | nil => intro N h; simp at h
    | cons b l ih =>
      intro N h
      rw [List.map_cons, List.sum_cons] at h
      by_cases hN : N < b.numNodes
      · exact ⟨0, N, b, rfl, hN, by simp [nodesBefore]⟩
      · obtain ⟨i, n, b', h1, h2, h3⟩ := ih (N - b.numNodes) (by omega)
        refine ⟨i + 1, n, b', by simpa using h1, h2, ?_⟩
        unfold nodesBefore at h3 ⊢
        rw [List.take_succ_cons, List.map_cons, List.sum_cons]
        omega
  obtain ⟨i, n, b, h1, h2, h3⟩ := hex bodies N h
  refine ⟨(i, n), ⟨b, h1, h2, h3⟩, ?_⟩
  rintro ⟨j, n'⟩ ⟨b', g1, g2, g3⟩
  obtain ⟨rfl, rfl⟩ := before_inj g1 h1 g2 h2 (g3.trans h3.symm)
  rfl

private theorem mapNodes_matrix (ord : List Nat → List Nat) (hord : ∀ l, (ord l).Perm l) (sortNodes : List (Nat × Nat) → List (Nat × Nat))
    (hsort : SortsNodes sortNodes) (b : Assembler E K) (hdim : 0 < b.solutionDim) (hb : Sound b) (N : Nat) (f : Nat → Nat)
    (hf : ∀ n, n < b.numNodes → f n < N) (hinj : ∀ n n', n < b.numNodes → n' < b.numNodes → f n = f n' → n = n') :
    ∃ m m', b.assembleMatrix ord sortNodes = some (.ok m) ∧ (b.mapNodes N f).assembleMatrix ord sortNodes = some (.ok m') ∧
      (∀ n n' i j, n < b.numNodes → n' < b.numNodes → i < b.solutionDim → j < b.solutionDim →
        entry m' (b.solutionDim * f n + i) (b.solutionDim * f n' + j) = entry m (b.solutionDim * n + i) (b.solutionDim * n' + j)) ∧
      ∀ r col, (∀ n i, n < b.numNodes → i < b.solutionDim → r ≠ b.solutionDim * f n + i) ∨
        (∀ n i, n < b.numNodes → i < b.solutionDim → col ≠ b.solutionDim * f n + i) → entry m' r col = 0 := by
  obtain ⟨h1, h2⟩ := inBounds b hb.nodes
  obtain ⟨m, m', g1, g2, -, -, g3, g4⟩ := C68_renamed_assembly_relocates_entries ord hord sortNodes hsort _ hdim h1 h2
    (fun e => answer (b.matrix e)) (fun e => okOr (fun _ _ => 0) (b.matrix e))
    (fun e he => answer_okOr _ _ (hb.matrix e (by simpa using he))) N f hf hinj
  refine ⟨m, m', ?_, ?_, g3, g4⟩
  · unfold Assembler.assembleMatrix
    rw [conn_eq b hb.nodes]
    exact g1
  · unfold Assembler.assembleMatrix
    rw [conn_eq _ (mapNodes_sound b hb N f hf hinj).nodes, Option.bind_some]
    refine Eq.trans ?_ g2
    congr 1
    simp only [mapElementNodes, Assembler.mapNodes, List.map_map, Conn.mk.injEq, true_and]
    refine List.map_congr_left (fun e he => ?_)
    obtain ⟨l, hl, _⟩ := hb.nodes e (List.mem_range.1 he)
    simp [hl]

private theorem sum_single {α : Type} (l : List α) (g : α → K) (i : Nat) (x : α) (hx : l[i]? = some x)
    (h : ∀ j y, l[j]? = some y → j ≠ i → g y = 0) : (l.map g).sum = g x := by
  obtain ⟨hi, rfl⟩ := List.getElem?_eq_some_iff.1 hx
  rw [← List.ofFn_getElem (xs := l.map g), List.sum_ofFn, Finset.sum_eq_single ⟨i, by simpa using hi⟩]
  · simp
  · intro j _ hj
    simp only [List.getElem_map]
    exact h j _ (List.getElem?_eq_getElem (by simpa using j.2)) (fun e => hj (Fin.ext e))
  · simp

private theorem sum_zero {α : Type} (l : List α) (g : α → K) (h : ∀ (j : Nat) y, l[j]? = some y → g y = 0) : (l.map g).sum = 0 := by
  apply List.sum_eq_zero
  intro x hx
  obtain ⟨y, hy, rfl⟩ := List.mem_map.1 hx
  obtain ⟨j, hj⟩ := List.getElem?_of_mem hy
  exact h j y hj

/-- Several bodies in one system: if the nodes of each body are moved behind those of the bodies before it and the assemblers are combined in an
aggregate, then the assembled matrix has the matrices of the bodies as its diagonal blocks, and no entries that couple different bodies. -/
theorem C100_bodies_matrix (search : List Nat → Nat → SearchResult) (hs : BinarySearch search) (ord : List Nat → List Nat)
    (hord : ∀ l, (ord l).Perm l) (sortNodes : List (Nat × Nat) → List (Nat × Nat)) (hsort : SortsNodes sortNodes)
    (bodies : List (Assembler E K)) (hne : bodies ≠ []) (s : Nat) (hdim : 0 < s) (hc : ∀ b ∈ bodies, b.solutionDim = s)
    (hsound : ∀ b ∈ bodies, Sound b) (hsel : FindsLast search ∨ ∀ b ∈ bodies, b.numElements ≠ 0) :
    ∃ a m ms, aggregate search (stacked bodies) = some a ∧ a.assembleMatrix ord sortNodes = some (.ok m) ∧
      List.Forall₂ (fun b mb => b.assembleMatrix ord sortNodes = some (.ok mb)) bodies ms ∧
      WellFormed m ∧ m.rows.length = s * (bodies.map Assembler.numNodes).sum ∧ m.ncols = s * (bodies.map Assembler.numNodes).sum ∧
      ∀ i j b b' mb, bodies[i]? = some b → bodies[j]? = some b' → ms[i]? = some mb →
        ∀ n n' k l, n < b.numNodes → n' < b'.numNodes → k < s → l < s →
          entry m (s * (nodesBefore bodies i + n) + k) (s * (nodesBefore bodies j + n') + l) =
            if i = j then entry mb (s * n + k) (s * n' + l) else 0 := by
  have hst := stacked_sound bodies s hc hsound
  obtain ⟨a, m, ms', h1, h2, h3, h4, h5, h6, h7, -⟩ := C100_aggregate_matrix search hs ord hord sortNodes hsort (stacked bodies)
    (by simpa [stacked] using hne) s _ hdim (fun p hp => (hst p hp).1) (fun p hp => (hst p hp).2) (stacked_nonempty bodies _ hsel)
  have hall : ∃ ms, List.Forall₂ (fun b mb => b.assembleMatrix ord sortNodes = some (.ok mb)) bodies ms := by
    clear h1 h2 h3 h4 h5 h6 h7 hst hne hsel
    induction bodies with
    | nil => exact ⟨[], List.Forall₂.nil⟩
    | cons b bs ih =>
      obtain ⟨ms, h⟩ := ih (fun b hb => hc b (by simp [hb])) (fun b hb => hsound b (by simp [hb]))
      obtain ⟨mb, hm, -⟩ := matrix_sum ord hord sortNodes hsort b (by rw [hc b (by simp)]; exact hdim) (hsound b (by simp))
      exact ⟨mb :: ms, List.Forall₂.cons hm h⟩
  obtain ⟨ms, hms⟩ := hall
  refine ⟨a, m, ms, h1, h2, hms, h4, h5, h6, ?_⟩
  -- the matrices of the moved bodies
  have hmoved : ∀ t mt, ms'[t]? = some mt → ∃ b mb, bodies[t]? = some b ∧ b.assembleMatrix ord sortNodes = some (.ok mb) ∧
      (∀ n n' i j, n < b.numNodes → n' < b.numNodes → i < s → j < s →
        entry mt (s * (nodesBefore bodies t + n) + i) (s * (nodesBefore bodies t + n') + j) = entry mb (s * n + i) (s * n' + j)) ∧
      ∀ r col, (∀ n i, n < b.numNodes → i < s → r ≠ s * (nodesBefore bodies t + n) + i) ∨
        (∀ n i, n < b.numNodes → i < s → col ≠ s * (nodesBefore bodies t + n) + i) → entry mt r col = 0 := by
    intro t mt ht
    have hlen := h3.length_eq
    have htl := (List.getElem?_eq_some_iff.1 ht).1
    have hp : (stacked bodies)[t]? = some ((stacked bodies)[t]'(by omega)) := List.getElem?_eq_getElem _
    have hpm := (List.forall₂_iff_get.1 h3).2 t (by omega) htl
    simp only [List.get_eq_getElem] at hpm
    rw [(List.getElem?_eq_some_iff.1 ht).2] at hpm
    obtain ⟨b, hb, hpb⟩ := stacked_get hp
    rw [hpb] at hpm
    have hmem := List.mem_of_getElem? hb
    obtain ⟨mb, m', k1, k2, k3, k4⟩ := mapNodes_matrix ord hord sortNodes hsort b (by rw [hc b hmem]; exact hdim) (hsound b hmem) _
      (fun n => nodesBefore bodies t + n) (fun n hn => before_lt hb hn) (fun n n' _ _ h => Nat.add_left_cancel h)
    rw [hpm] at k2
    obtain rfl : mt = m' := by injection k2 with h; injection h
    rw [hc b hmem] at k3 k4
    exact ⟨b, mb, hb, k1, k3, k4⟩
  intro i j b b' mb hb hb' hmb n n' k l hn hn' hk hl
  rw [h7]
  have hzero : ∀ t mt, ms'[t]? = some mt → t ≠ i ∨ t ≠ j →
      entry mt (s * (nodesBefore bodies i + n) + k) (s * (nodesBefore bodies j + n') + l) = 0 := by
    intro t mt ht hor
    obtain ⟨bt, mbt, k1, -, -, k4⟩ := hmoved t mt ht
    apply k4
    rcases hor with h | h
    · left
      intro x y hx hy hcon
      have := (dof_eq hk hy).1 hcon
      exact h (before_inj hb k1 hn hx this.1).1.symm
    · right
      intro x y hx hy hcon
      have := (dof_eq hl hy).1 hcon
      exact h (before_inj hb' k1 hn' hx this.1).1.symm
  split
  · rename_i hij
    subst hij
    rw [hb] at hb'
    cases hb'
    have hil := (List.getElem?_eq_some_iff.1 hb).1
    have hil' : i < ms'.length := by rw [← h3.length_eq]; simpa [stacked] using hil
    rw [sum_single ms' _ i _ (List.getElem?_eq_getElem hil') (fun t y ht hne => hzero t y ht (Or.inl hne))]
    obtain ⟨bt, mbt, k1, k2, k3, -⟩ := hmoved i _ (List.getElem?_eq_getElem hil')
    rw [hb] at k1
    cases k1
    rw [k3 n n' k l hn hn' hk hl]
    have hpm := (List.forall₂_iff_get.1 hms).2 i hil (List.getElem?_eq_some_iff.1 hmb).1
    simp only [List.get_eq_getElem] at hpm
    rw [(List.getElem?_eq_some_iff.1 hmb).2, (List.getElem?_eq_some_iff.1 hb).2, k2] at hpm
    obtain rfl : mbt = mb := by injection hpm with h; injection h
    rfl
  · rename_i hij
    apply sum_zero
    intro t mt ht
    apply hzero t mt ht
    omega

private theorem vcontribution_map (s : Nat) (nodes : List Nat) (f : Nat → Nat) (v : Nat → K) (r r' : Nat)
    (h : ∀ n ∈ nodes, ∀ i, i < s → (s * f n + i = r ↔ s * n + i = r')) :
    vectorContribution s (nodes.map f) v r = vectorContribution s nodes v r' := by
  unfold vectorContribution
  have hl : (nodes.map f).length = nodes.length := by simp
  refine Fintype.sum_equiv (finCongr hl) _ _ (fun a => ?_)
  refine Finset.sum_congr rfl (fun i _ => ?_)
  have ha : (nodes.map f)[a] = f (nodes[(finCongr hl) a]) := by simp
  have := h (nodes[(finCongr hl) a]) (List.getElem_mem _) i i.2
  rw [ha]
  simp only [this]
  rfl

private theorem vcontribution_zero (s : Nat) (nodes : List Nat) (v : Nat → K) (r : Nat)
    (h : ∀ n ∈ nodes, ∀ i, i < s → s * n + i ≠ r) : vectorContribution s nodes v r = 0 := by
  unfold vectorContribution
  refine Finset.sum_eq_zero (fun a _ => Finset.sum_eq_zero (fun i _ => ?_))
  exact if_neg (h _ (List.getElem_mem _) i i.2)

private theorem mapNodes_vector (b : Assembler E K) (hb : Sound b) (N : Nat) (f : Nat → Nat)
    (hf : ∀ n, n < b.numNodes → f n < N) (hinj : ∀ n n', n < b.numNodes → n' < b.numNodes → f n = f n' → n = n') :
    ∃ v v', b.assembleVector = some (.ok v) ∧ (b.mapNodes N f).assembleVector = some (.ok v') ∧
      (∀ n i, n < b.numNodes → i < b.solutionDim → v'.getD (b.solutionDim * f n + i) 0 = v.getD (b.solutionDim * n + i) 0) ∧
      ∀ r, (∀ n i, n < b.numNodes → i < b.solutionDim → r ≠ b.solutionDim * f n + i) → v'.getD r 0 = 0 := by
  have hmap : ∀ e, ((b.mapNodes N f).nodes e).getD [] = ((b.nodes e).getD []).map f := by
    intro e
    simp only [Assembler.mapNodes]
    cases b.nodes e <;> simp
  have hlt : ∀ {n N i : Nat}, n < N → i < b.solutionDim → b.solutionDim * n + i < b.solutionDim * N := by
    intro n N i hn hi
    have := Nat.mul_le_mul_left b.solutionDim (Nat.succ_le_of_lt hn)
    rw [Nat.mul_succ] at this
    omega
  refine ⟨_, _, vector_sum b hb, vector_sum _ (mapNodes_sound b hb N f hf hinj), ?_, ?_⟩
  · intro n i hn hi
    have h1 : b.solutionDim * f n + i < (b.mapNodes N f).solutionDim * (b.mapNodes N f).numNodes := hlt (hf n hn) hi
    have h2 := hlt hn hi
    simp only [List.getD, List.getElem?_map, List.getElem?_range h1, List.getElem?_range h2, Option.map_some, Option.getD_some]
    refine Finset.sum_congr rfl (fun e he => ?_)
    rw [hmap]
    refine vcontribution_map b.solutionDim _ f _ _ _ ?_
    intro x hx j hj
    obtain ⟨l, hl, _, hbd⟩ := hb.nodes e (Finset.mem_range.1 he)
    rw [hl] at hx
    rw [dof_eq hj hi, dof_eq hj hi]
    exact ⟨fun h => ⟨hinj _ _ (hbd x hx) hn h.1, h.2⟩, fun h => ⟨by rw [h.1], h.2⟩⟩
  · intro r hr
    by_cases h1 : r < (b.mapNodes N f).solutionDim * (b.mapNodes N f).numNodes
    · simp only [List.getD, List.getElem?_map, List.getElem?_range h1, Option.map_some, Option.getD_some]
      refine Finset.sum_eq_zero (fun e he => ?_)
      rw [hmap]
      apply vcontribution_zero
      intro x hx j hj hcon
      obtain ⟨y, hy, rfl⟩ := List.mem_map.1 hx
      obtain ⟨l, hl, _, hbd⟩ := hb.nodes e (Finset.mem_range.1 he)
      rw [hl] at hy
      exact hr y j (hbd y hy) hj hcon.symm
    · simp [List.getD, List.getElem?_eq_none, Nat.not_lt.1 h1]

/-- The assembled vector consists of the vectors of the bodies. -/
theorem C100_bodies_vector (search : List Nat → Nat → SearchResult) (hs : BinarySearch search)
    (bodies : List (Assembler E K)) (hne : bodies ≠ []) (s : Nat) (hc : ∀ b ∈ bodies, b.solutionDim = s)
    (hsound : ∀ b ∈ bodies, Sound b) (hsel : FindsLast search ∨ ∀ b ∈ bodies, b.numElements ≠ 0) :
    ∃ a v vs, aggregate search (stacked bodies) = some a ∧ a.assembleVector = some (.ok v) ∧
      List.Forall₂ (fun b vb => b.assembleVector = some (.ok vb) ∧ vb.length = s * b.numNodes) bodies vs ∧
      v.length = s * (bodies.map Assembler.numNodes).sum ∧
      ∀ i b vb, bodies[i]? = some b → vs[i]? = some vb → ∀ n k, n < b.numNodes → k < s →
        v[s * (nodesBefore bodies i + n) + k]? = vb[s * n + k]? := by
  have hst := stacked_sound bodies s hc hsound
  obtain ⟨a, v, vs', h1, h2, h3, h4, h5, h6⟩ := C100_aggregate_vector search hs (stacked bodies)
    (by simpa [stacked] using hne) s _ (fun p hp => (hst p hp).1) (fun p hp => (hst p hp).2) (stacked_nonempty bodies _ hsel)
  have hall : ∃ vs : List (List K), List.Forall₂ (fun b vb => b.assembleVector = some (.ok vb) ∧ vb.length = s * b.numNodes) bodies vs := by
    clear h1 h2 h3 h4 h5 h6 hst hne hsel
    induction bodies with
    | nil => exact ⟨[], List.Forall₂.nil⟩
    | cons b bs ih =>
      obtain ⟨ms, h⟩ := ih (fun b hb => hc b (by simp [hb])) (fun b hb => hsound b (by simp [hb]))
      exact ⟨_ :: ms, List.Forall₂.cons ⟨vector_sum b (hsound b (by simp)), by simp [hc b]⟩ h⟩
  obtain ⟨vs, hvs⟩ := hall
  refine ⟨a, v, vs, h1, h2, hvs, h4, ?_⟩
  have hmoved : ∀ (t : Nat) (vt : List K), vs'[t]? = some vt → ∃ b vb, bodies[t]? = some b ∧ b.assembleVector = some (.ok vb) ∧
      (∀ n i, n < b.numNodes → i < s → vt.getD (s * (nodesBefore bodies t + n) + i) 0 = vb.getD (s * n + i) 0) ∧
      ∀ r, (∀ n i, n < b.numNodes → i < s → r ≠ s * (nodesBefore bodies t + n) + i) → vt.getD r 0 = 0 := by
    intro t vt ht
    have hlen := h3.length_eq
    have htl := (List.getElem?_eq_some_iff.1 ht).1
    have hp : (stacked bodies)[t]? = some ((stacked bodies)[t]'(by omega)) := List.getElem?_eq_getElem _
    have hpm := (List.forall₂_iff_get.1 h3).2 t (by omega) htl
    simp only [List.get_eq_getElem] at hpm
    rw [(List.getElem?_eq_some_iff.1 ht).2] at hpm
    obtain ⟨b, hb, hpb⟩ := stacked_get hp
    rw [hpb] at hpm
    have hmem := List.mem_of_getElem? hb
    obtain ⟨vb, v', k1, k2, k3, k4⟩ := mapNodes_vector b (hsound b hmem) _
      (fun n => nodesBefore bodies t + n) (fun n hn => before_lt hb hn) (fun n n' _ _ h => Nat.add_left_cancel h)
    rw [hpm] at k2
    obtain rfl : vt = v' := by injection k2 with h; injection h
    rw [hc b hmem] at k3 k4
    exact ⟨b, vb, hb, k1, k3, k4⟩
  intro i b vb hb hvb n k hn hk
  have hlt : ∀ {n N i : Nat}, n < N → i < s → s * n + i < s * N := by
    intro n N i hn hi
    have := Nat.mul_le_mul_left s (Nat.succ_le_of_lt hn)
    rw [Nat.mul_succ] at this
    omega
  have hil := (List.getElem?_eq_some_iff.1 hb).1
  have hil' : i < vs'.length := by rw [← h3.length_eq]; simpa [stacked] using hil
  rw [h6 _ (hlt (before_lt hb hn) hk), sum_single vs' (fun vp => vp.getD (s * (nodesBefore bodies i + n) + k) 0) i _ (List.getElem?_eq_getElem hil')]
  · obtain ⟨bt, vbt, k1, k2, k3, -⟩ := hmoved i _ (List.getElem?_eq_getElem hil')
    rw [hb] at k1
    cases k1
    rw [k3 n k hn hk]
    have hpm := (List.forall₂_iff_get.1 hvs).2 i hil (List.getElem?_eq_some_iff.1 hvb).1
    simp only [List.get_eq_getElem] at hpm
    rw [(List.getElem?_eq_some_iff.1 hvb).2, (List.getElem?_eq_some_iff.1 hb).2, k2] at hpm
    obtain ⟨hpm, hlen⟩ := hpm
    obtain rfl : vbt = vb := by injection hpm with h; injection h
    have := hlt hn hk
    rw [List.getD_eq_getElem?_getD, List.getElem?_eq_getElem (by omega), Option.getD_some]
  · intro t y ht hne
    obtain ⟨bt, vbt, k1, -, -, k4⟩ := hmoved t y ht
    apply k4
    intro x z hx hz hcon
    exact hne (before_inj hb k1 hn hx ((dof_eq hk hz).1 hcon).1).1.symm

/-- The assembled scalar, for example the total energy, is the sum of those of the bodies. -/
theorem C100_bodies_scalar (search : List Nat → Nat → SearchResult) (hs : BinarySearch search)
    (bodies : List (Assembler E K)) (hne : bodies ≠ []) (s : Nat) (hc : ∀ b ∈ bodies, b.solutionDim = s)
    (hsound : ∀ b ∈ bodies, Sound b) (hsel : FindsLast search ∨ ∀ b ∈ bodies, b.numElements ≠ 0) :
    ∃ a xs, aggregate search (stacked bodies) = some a ∧ List.Forall₂ (fun b x => b.assembleScalar = .ok x) bodies xs ∧
      a.assembleScalar = .ok xs.sum := by
  have hst := stacked_sound bodies s hc hsound
  obtain ⟨a, xs, h1, h2, h3⟩ := C100_aggregate_scalar search hs (stacked bodies)
    (by simpa [stacked] using hne) s _ (fun p hp => (hst p hp).1) (fun p hp => (hst p hp).2) (stacked_nonempty bodies _ hsel)
  refine ⟨a, xs, h1, ?_, h3⟩
  rw [List.forall₂_iff_get] at h2 ⊢
  refine ⟨by rw [← h2.1]; simp [stacked], fun i hi hi' => ?_⟩
  have h := h2.2 i (by simpa [stacked] using hi) hi'
  obtain ⟨b, hb, hp⟩ := stacked_get (List.getElem?_eq_getElem (show i < (stacked bodies).length by simpa [stacked] using hi))
  rw [List.get_eq_getElem, hp] at h
  rw [List.get_eq_getElem, (List.getElem?_eq_some_iff.1 hb).2]
  exact h

end

end Fenris.Combinators
