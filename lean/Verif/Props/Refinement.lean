import Verif.Lemmas.Refinement
import Verif.Spec.Refinement
import Mathlib.Tactic.Ring
import Mathlib.Data.Fin.VecNotation
import Mathlib.Tactic.FieldSimp
import Mathlib.Tactic.Linarith
import Mathlib.Tactic.LinearCombination
/-! # C16: uniform triangle refinement -/
set_option autoImplicit false

namespace Fenris
open Refine
variable {K : Type} [Field K] {d : Nat}

/-- The label used by the code for a node. -/
private def toLabel : Spec.Node → Label
  | .vertex v => .vertex v
  | .mid a b => .mid a b

private theorem canon_iff (n n' : Spec.Node) :
    (toLabel n).canon = (toLabel n').canon ↔ n.Same n' := by
  cases n <;> cases n' <;> simp [toLabel, Label.canon, Spec.Node.Same]
  omega

private theorem children_eq (i j k : Nat) :
    tri3Children [i, j, k] = some ((Spec.childNodes [i, j, k]).map (·.map toLabel)) := rfl

private theorem construct_congr (vs : List (Point d K)) (l l' : Label) (h : l.canon = l'.canon) :
    l.construct vs = l'.construct vs := by
  cases l with
  | vertex v =>
    cases l' with
    | vertex w => simp [Label.canon] at h; rw [h]
    | mid a b => simp [Label.canon] at h
  | mid a b =>
    cases l' with
    | vertex w => simp [Label.canon] at h
    | mid a' b' =>
      simp [Label.canon] at h
      have h : (a = a' ∧ b = b') ∨ (a = b' ∧ b = a') := by omega
      rcases h with ⟨rfl, rfl⟩ | ⟨rfl, rfl⟩
      · rfl
      · unfold Label.construct
        cases ha : vs[a]? <;> cases hb : vs[b]? <;> simp [ha, hb, add_comm]

private theorem construct_isAt (vs : List (Point d K)) (n : Spec.Node) (p : Point d K)
    (h : (toLabel n).construct vs = some p) : n.IsAt vs p := by
  cases n with
  | vertex v => exact h
  | mid a b =>
    simp only [toLabel, Label.construct] at h
    cases ha : vs[a]? <;> cases hb : vs[b]? <;> rw [ha, hb] at h <;> simp at h
    rename_i x y
    exact ⟨x, y, ha, hb, h.symm⟩

private theorem forall₂_map_idx {m : List (Label × Nat) × Nat} (hm : TableInv Label.canon m)
    {ns : List Spec.Node} {is : List Nat}
    (h : List.Forall₂ (Idx Label.canon m.1) (ns.map toLabel) is) :
    is = ns.map (fun n => (lookup Label.canon (toLabel n) m.1).getD 0) := by
  induction ns generalizing is with
  | nil => cases h; rfl
  | cons n ns ih =>
    cases h with
    | cons h1 h2 =>
      rw [List.map_cons, ← ih h2]
      congr 1
      obtain ⟨l0, hl, hk⟩ := h1
      cases hlk : lookup Label.canon (toLabel n) m.1 with
      | none => exact absurd hk (lookup_none hlk _ hl)
      | some i => exact (hm.idx_iff ⟨l0, hl, hk⟩ (lookup_some hlk)).2 rfl

/-- C16.  Refinement succeeds and its result is described by a numbering `idx` of the vertices and
edge midpoints of the old mesh: cell `t` is replaced by its four children (in place, in order); each
node sits at the old vertex, or at the midpoint of the old edge; two nodes have the same number
exactly when they are the same vertex or the same edge (from either side); and the new vertices are
exactly these nodes, none superfluous. -/
theorem C16_refinement_is_conforming_midpoint_subdivision
    (ord : List (Label × Nat) → List (Label × Nat)) (hord : ∀ m, (ord m).Perm m)
    (mesh : Mesh (Point d K)) (hv : Spec.ValidTri mesh) :
    ∃ (out : Mesh (Point d K)) (idx : Spec.Node → Nat), refineUniformly ord mesh = some out ∧
      out.cells = mesh.cells.flatMap (fun c => (Spec.childNodes c).map (·.map idx)) ∧
      (∀ n, Spec.IsNodeOf mesh n → ∃ p, out.vertices[idx n]? = some p ∧ n.IsAt mesh.vertices p) ∧
      (∀ n n', Spec.IsNodeOf mesh n → Spec.IsNodeOf mesh n' → (idx n = idx n' ↔ n.Same n')) ∧
      ∀ i, i < out.vertices.length → ∃ n, Spec.IsNodeOf mesh n ∧ idx n = i := by
  have hch : ∀ c ∈ mesh.cells, ∃ ch, tri3Children c = some ch ∧
      ∀ ls ∈ ch, ∀ l ∈ ls, (Label.construct mesh.vertices l).isSome := by
    intro c hc
    obtain ⟨i, j, k, rfl, hi, hj, hk⟩ := hv c hc
    refine ⟨_, rfl, ?_⟩
    simp [Label.construct, hi, hj, hk]
  obtain ⟨out, chs, h1, h2, m, hm, hml, h3, h4, h5⟩ :=
    refineMesh_spec (dflt := fun _ => 0) hord hch (construct_congr mesh.vertices)
  have hchs : chs = mesh.cells.map (fun c => (Spec.childNodes c).map (·.map toLabel)) := by
    clear h1 h3 h4 h5 hm hml hch
    obtain ⟨vs, cells⟩ := mesh
    simp only at h2 ⊢
    replace hv : ∀ c ∈ cells, ∃ i j k, c = [i, j, k] := fun c hc => by
      obtain ⟨i, j, k, h, _⟩ := hv c hc
      exact ⟨i, j, k, h⟩
    induction h2 with
    | nil => rfl
    | cons h h' ih =>
      rename_i c ch cs chs
      rw [List.map_cons, ih (fun c hc => hv c (by simp [hc]))]
      obtain ⟨i, j, k, rfl⟩ := hv c (by simp)
      rw [children_eq] at h
      cases h
      rfl
  have hflat : chs.flatten = (mesh.cells.flatMap Spec.childNodes).map (·.map toLabel) := by
    rw [hchs, List.flatMap_def, List.map_flatten, List.map_map]
    rfl
  have hnodes : ∀ n, Spec.IsNodeOf mesh n ↔ ∃ ch ∈ mesh.cells.flatMap Spec.childNodes, n ∈ ch := by
    intro n
    constructor
    · rintro ⟨c, hc, ch, hch, hn⟩
      exact ⟨ch, List.mem_flatMap.2 ⟨c, hc, hch⟩, hn⟩
    · rintro ⟨ch, hch, hn⟩
      obtain ⟨c, hc, hch⟩ := List.mem_flatMap.1 hch
      exact ⟨c, hc, ch, hch, hn⟩
  rw [hflat] at h3 h5
  have hcells : ∀ (nss : List (List Spec.Node)) (os : List (List Nat)),
      List.Forall₂ (List.Forall₂ (Idx Label.canon m.1)) (nss.map (·.map toLabel)) os →
      os = nss.map (·.map (fun n => (lookup Label.canon (toLabel n) m.1).getD 0)) ∧
      ∀ ns ∈ nss, ∀ n ∈ ns, ∃ i, Idx Label.canon m.1 (toLabel n) i := by
    intro nss
    induction nss with
    | nil => intro os h; cases h; exact ⟨rfl, by simp⟩
    | cons ns nss ih =>
      intro os h
      cases h with
      | cons h1 h2 =>
        obtain ⟨g1, g2⟩ := ih _ h2
        refine ⟨by rw [List.map_cons, ← g1, forall₂_map_idx hm h1], ?_⟩
        intro ns' hns' n hn
        rcases List.mem_cons.1 hns' with rfl | hns'
        · clear g1 g2 ih h2
          obtain ⟨q, hq, hnq⟩ := List.getElem_of_mem hn
          have hlen := h1.length_eq
          rw [List.length_map] at hlen
          have := List.Forall₂.get h1 (i := q) (by simpa using hq) (by omega)
          rw [List.get_eq_getElem, List.getElem_map, hnq] at this
          exact ⟨_, this⟩
        · exact g2 ns' hns' n hn
  obtain ⟨hc1, hc2⟩ := hcells _ _ h3
  have hidx : ∀ n, Spec.IsNodeOf mesh n → Idx Label.canon m.1 (toLabel n)
      ((lookup Label.canon (toLabel n) m.1).getD 0) := by
    intro n hn
    obtain ⟨ch, hch, hn⟩ := (hnodes n).1 hn
    obtain ⟨i, l0, hl, hk⟩ := hc2 ch hch n hn
    cases hlk : lookup Label.canon (toLabel n) m.1 with
    | none => exact absurd hk (lookup_none hlk _ hl)
    | some i => exact lookup_some hlk
  refine ⟨out, fun n => (lookup Label.canon (toLabel n) m.1).getD 0, h1, ?_, ?_, ?_, ?_⟩
  · rw [hc1, List.map_flatMap]
  · intro n hn
    have hi := hidx n hn
    have hp := h4 _ _ hi
    obtain ⟨l0, hl, _⟩ := hi
    have hlt := hm.lt hl
    rw [hml] at hlt
    refine ⟨_, List.getElem?_eq_getElem hlt, ?_⟩
    rw [List.getElem?_eq_getElem hlt] at hp
    exact construct_isAt _ _ _ hp.symm
  · intro n n' hn hn'
    rw [hm.idx_iff (hidx n hn) (hidx n' hn'), canon_iff]
  · intro i hi
    have : i ∈ m.1.map (·.2) := by
      rw [hm.idx, hml]
      exact List.mem_range.2 hi
    obtain ⟨⟨l, i'⟩, he, rfl⟩ := List.mem_map.1 this
    obtain ⟨ls, hls, hl⟩ := h5 _ he
    obtain ⟨ns, hns, rfl⟩ := List.mem_map.1 hls
    obtain ⟨n, hn, hnl⟩ := List.mem_map.1 hl
    have hnode := (hnodes n).2 ⟨ns, hns, hn⟩
    refine ⟨n, hnode, ?_⟩
    exact (hm.idx_iff (hidx n hnode) ⟨l, he, by rw [hnl]⟩).2 rfl

/-- The four children of a triangle, as coordinates. -/
private theorem children_coords (mesh out : Mesh (Point d K)) (idx : Spec.Node → Nat)
    (hn : ∀ n, Spec.IsNodeOf mesh n → ∃ p, out.vertices[idx n]? = some p ∧ n.IsAt mesh.vertices p)
    {i j k : Nat} (hc : [i, j, k] ∈ mesh.cells) {a b c : Point d K}
    (ha : mesh.vertices[i]? = some a) (hb : mesh.vertices[j]? = some b)
    (hcc : mesh.vertices[k]? = some c) :
    ((Spec.childNodes [i, j, k]).map (·.map idx)).map (Spec.coords out.vertices) =
      [some [a, Spec.midpoint a b, Spec.midpoint c a], some [Spec.midpoint a b, b, Spec.midpoint b c],
       some [Spec.midpoint c a, Spec.midpoint b c, c],
       some [Spec.midpoint a b, Spec.midpoint b c, Spec.midpoint c a]] := by
  have hv : ∀ v p, mesh.vertices[v]? = some p → (∃ ch ∈ Spec.childNodes [i, j, k],
      Spec.Node.vertex v ∈ ch) → out.vertices[idx (.vertex v)]? = some p := by
    rintro v p hp ⟨ch, hch, hm⟩
    obtain ⟨q, hq, hat⟩ := hn (.vertex v) ⟨_, hc, ch, hch, hm⟩
    rw [hq]
    exact hat.symm.trans hp
  have he : ∀ v w p q, mesh.vertices[v]? = some p → mesh.vertices[w]? = some q →
      (∃ ch ∈ Spec.childNodes [i, j, k], Spec.Node.mid v w ∈ ch) →
      out.vertices[idx (.mid v w)]? = some (Spec.midpoint p q) := by
    rintro v w p q hp hq' ⟨ch, hch, hm⟩
    obtain ⟨r, hr, x, y, hx, hy, rfl⟩ := hn (.mid v w) ⟨_, hc, ch, hch, hm⟩
    rw [hr]
    rw [hp] at hx; rw [hq'] at hy
    cases hx; cases hy; rfl
  have e1 := hv i a ha (by simp [Spec.childNodes])
  have e2 := hv j b hb (by simp [Spec.childNodes])
  have e3 := hv k c hcc (by simp [Spec.childNodes])
  have e4 := he i j a b ha hb (by simp [Spec.childNodes])
  have e5 := he j k b c hb hcc (by simp [Spec.childNodes])
  have e6 := he k i c a hcc ha (by simp [Spec.childNodes])
  simp [Spec.childNodes, Spec.coords, List.mapM_cons, e1, e2, e3, e4, e5, e6]

/-- C16.  Each of the four children of a triangle has a quarter of its signed area (so the same
orientation, and the areas add up). -/
theorem C16_children_have_quarter_area (ord : List (Label × Nat) → List (Label × Nat))
    (hord : ∀ m, (ord m).Perm m) (h2 : (2 : K) ≠ 0)
    (mesh : Mesh (Point 2 K)) (hv : Spec.ValidTri mesh) :
    ∃ out, refineUniformly ord mesh = some out ∧ Spec.ValidTri out ∧
      out.cells.length = 4 * mesh.cells.length ∧
      out.cells.map (Spec.cellArea out.vertices) =
        mesh.cells.flatMap (fun c =>
          List.replicate 4 ((Spec.cellArea mesh.vertices c).map (· / 4))) := by
  obtain ⟨out, idx, h1, hcells, hn, -, -⟩ :=
    C16_refinement_is_conforming_midpoint_subdivision ord hord mesh hv
  refine ⟨out, h1, ?_, ?_, ?_⟩
  · intro c hc
    rw [hcells] at hc
    obtain ⟨t, ht, hc⟩ := List.mem_flatMap.1 hc
    obtain ⟨i, j, k, rfl, _⟩ := hv t ht
    have hb : ∀ ch ∈ Spec.childNodes [i, j, k], ∀ n ∈ ch, idx n < out.vertices.length := by
      intro ch hch n hn'
      obtain ⟨p, hp, _⟩ := hn n ⟨_, ht, ch, hch, hn'⟩
      exact (List.getElem?_eq_some_iff.1 hp).1
    have e1 := hb _ (List.mem_cons_self) _ (List.mem_cons_self)
    have e2 : idx (.vertex j) < _ := hb [.mid i j, .vertex j, .mid j k] (by simp [Spec.childNodes]) _ (by simp)
    have e3 : idx (.vertex k) < _ := hb [.mid k i, .mid j k, .vertex k] (by simp [Spec.childNodes]) _ (by simp)
    have e4 : idx (.mid i j) < _ := hb [.mid i j, .mid j k, .mid k i] (by simp [Spec.childNodes]) _ (by simp)
    have e5 : idx (.mid j k) < _ := hb [.mid i j, .mid j k, .mid k i] (by simp [Spec.childNodes]) _ (by simp)
    have e6 : idx (.mid k i) < _ := hb [.mid i j, .mid j k, .mid k i] (by simp [Spec.childNodes]) _ (by simp)
    simp only [Spec.childNodes, List.map_cons, List.map_nil, List.mem_cons, List.not_mem_nil,
      or_false] at hc
    rcases hc with rfl | rfl | rfl | rfl
    · exact ⟨_, _, _, rfl, e1, e4, e6⟩
    · exact ⟨_, _, _, rfl, e4, e2, e5⟩
    · exact ⟨_, _, _, rfl, e6, e5, e3⟩
    · exact ⟨_, _, _, rfl, e4, e5, e6⟩
  · rw [hcells]
    clear hcells h1 hn
    obtain ⟨vs, cells⟩ := mesh
    simp only
    replace hv : ∀ c ∈ cells, ∃ i j k, c = [i, j, k] := fun c hc => by
      obtain ⟨i, j, k, h, _⟩ := hv c hc
      exact ⟨i, j, k, h⟩
    induction cells with
    | nil => rfl
    | cons c cs ih =>
      obtain ⟨i, j, k, rfl⟩ := hv c (by simp)
      rw [List.flatMap_cons, List.length_append, ih (fun c hc => hv c (by simp [hc]))]
      simp [Spec.childNodes]
      omega
  · rw [hcells, List.map_flatMap]
    have h4 : (4 : K) ≠ 0 := by
      have : (4 : K) = 2 * 2 := by norm_num
      rw [this]; exact mul_ne_zero h2 h2
    rw [List.flatMap_def, List.flatMap_def]
    congr 1
    apply List.map_congr_left
    intro t ht
    obtain ⟨i, j, k, rfl, hi, hj, hk⟩ := hv t ht
    have hcc := children_coords mesh out idx hn ht (List.getElem?_eq_getElem hi)
      (List.getElem?_eq_getElem hj) (List.getElem?_eq_getElem hk)
    have hca : Spec.cellArea mesh.vertices [i, j, k] =
        some (Spec.signedArea mesh.vertices[i] mesh.vertices[j] mesh.vertices[k]) := by
      simp [Spec.cellArea, Spec.coords, List.mapM_cons, List.getElem?_eq_getElem hi,
        List.getElem?_eq_getElem hj, List.getElem?_eq_getElem hk]
    rw [hca]
    simp only [Spec.childNodes, List.map_cons, List.map_nil, List.cons.injEq, and_true] at hcc
    obtain ⟨c1, c2, c3, c4⟩ := hcc
    simp only [Spec.childNodes, List.map_cons, List.map_nil, Spec.cellArea, c1, c2, c3, c4,
      Option.map_some, List.replicate_succ, List.replicate_zero, List.cons.injEq, and_true,
      Option.some.injEq]
    simp only [Spec.signedArea, Spec.midpoint]
    refine ⟨?_, ?_, ?_, ?_⟩ <;> field_simp <;> ring

private theorem sum_mapM_flatMap {α : Type} (f : α → Option K) (cells : List α)
    (hf : ∀ c ∈ cells, (f c).isSome) (h4 : (4 : K) ≠ 0) :
    ∃ s, (cells.mapM f).map List.sum = some s ∧
    ((cells.flatMap (fun c => List.replicate 4 ((f c).map (· / 4)))).mapM id).map List.sum
      = some s := by
  induction cells with
  | nil => exact ⟨0, rfl, rfl⟩
  | cons c cs ih =>
    obtain ⟨s, h1, h2⟩ := ih (fun c hc => hf c (by simp [hc]))
    obtain ⟨x, hx⟩ := Option.isSome_iff_exists.1 (hf c (by simp))
    obtain ⟨l1, hl1, rfl⟩ := Option.map_eq_some_iff.1 h1
    obtain ⟨l2, hl2, hs⟩ := Option.map_eq_some_iff.1 h2
    refine ⟨x + l1.sum, by simp [List.mapM_cons, hx, hl1], ?_⟩
    rw [List.flatMap_cons, hx]
    generalize cs.flatMap (fun c => List.replicate 4 ((f c).map (· / 4))) = T at hl2 ⊢
    simp only [Option.map_some, List.replicate_succ, List.replicate_zero, List.cons_append,
      List.nil_append, List.mapM_cons, id_eq, hl2]
    simp only [Option.bind_eq_bind, Option.bind_some, Option.pure_def, Option.map_some,
      List.sum_cons, hs, Option.some.injEq]
    have := div_mul_cancel₀ x h4
    linear_combination this

/-- C16.  Repeating the refinement `n` times gives `4^n` times as many cells, a valid mesh, and
the same total signed area. -/
theorem C16_repeat_counts_cells_and_preserves_area (ord : List (Label × Nat) → List (Label × Nat))
    (hord : ∀ m, (ord m).Perm m) (h2 : (2 : K) ≠ 0) (n : Nat)
    (mesh : Mesh (Point 2 K)) (hv : Spec.ValidTri mesh) :
    ∃ out, refineRepeat ord n mesh = some out ∧ Spec.ValidTri out ∧
      out.cells.length = 4 ^ n * mesh.cells.length ∧
      ∃ A, Spec.totalArea mesh = some A ∧ Spec.totalArea out = some A := by
  have h4 : (4 : K) ≠ 0 := by
    have : (4 : K) = 2 * 2 := by norm_num
    rw [this]; exact mul_ne_zero h2 h2
  have hsome : ∀ c ∈ mesh.cells, (Spec.cellArea mesh.vertices c).isSome := by
    intro c hc
    obtain ⟨i, j, k, rfl, hi, hj, hk⟩ := hv c hc
    simp [Spec.cellArea, Spec.coords, List.mapM_cons, List.getElem?_eq_getElem hi,
        List.getElem?_eq_getElem hj, List.getElem?_eq_getElem hk]
  induction n generalizing mesh with
  | zero =>
    obtain ⟨s, hs, _⟩ := sum_mapM_flatMap (Spec.cellArea mesh.vertices) mesh.cells hsome h4
    exact ⟨mesh, rfl, hv, by simp, s, hs, hs⟩
  | succ n ih =>
    obtain ⟨m, h1, hv1, hl, ha⟩ := C16_children_have_quarter_area ord hord h2 mesh hv
    have hsome1 : ∀ c ∈ m.cells, (Spec.cellArea m.vertices c).isSome := by
      intro c hc
      obtain ⟨i, j, k, rfl, hi, hj, hk⟩ := hv1 c hc
      simp [Spec.cellArea, Spec.coords, List.mapM_cons, List.getElem?_eq_getElem hi,
          List.getElem?_eq_getElem hj, List.getElem?_eq_getElem hk]
    obtain ⟨out, g1, g2, g3, A, g4, g5⟩ := ih m hv1 hsome1
    refine ⟨out, by rw [refineRepeat, h1]; exact g1, g2, by rw [g3, hl]; ring, A, ?_, g5⟩
    obtain ⟨s, hs, hs'⟩ := sum_mapM_flatMap (Spec.cellArea mesh.vertices) mesh.cells hsome h4
    have : Spec.totalArea m = some s := by
      unfold Spec.totalArea
      rw [← hs', ← ha, List.mapM_map]
      rfl
    rw [show Spec.totalArea mesh = some s from hs, ← this, g4]

section Ordered
variable [LinearOrder K] [IsStrictOrderedRing K]

/-- C16.  The four children cover exactly the parent triangle. -/
theorem C16_children_cover_parent (a b c p : Point d K) :
    Spec.InTri a b c p ↔
      Spec.InTri a (Spec.midpoint a b) (Spec.midpoint c a) p ∨
      Spec.InTri (Spec.midpoint a b) b (Spec.midpoint b c) p ∨
      Spec.InTri (Spec.midpoint c a) (Spec.midpoint b c) c p ∨
      Spec.InTri (Spec.midpoint a b) (Spec.midpoint b c) (Spec.midpoint c a) p := by
  constructor
  · rintro ⟨u, v, w, hu, hv, hw, hs, hp⟩
    by_cases h1 : 1 / 2 ≤ u
    · exact Or.inl ⟨2 * u - 1, 2 * v, 2 * w, by linarith, by linarith, by linarith, by linarith,
        fun i => by rw [hp i]; simp only [Spec.midpoint]; linear_combination (-a i) * hs⟩
    by_cases h2 : 1 / 2 ≤ v
    · exact Or.inr (Or.inl ⟨2 * u, 2 * v - 1, 2 * w, by linarith, by linarith, by linarith,
        by linarith, fun i => by rw [hp i]; simp only [Spec.midpoint]; linear_combination (-b i) * hs⟩)
    by_cases h3 : 1 / 2 ≤ w
    · exact Or.inr (Or.inr (Or.inl ⟨2 * u, 2 * v, 2 * w - 1, by linarith, by linarith, by linarith,
        by linarith, fun i => by rw [hp i]; simp only [Spec.midpoint]; linear_combination (-c i) * hs⟩))
    · exact Or.inr (Or.inr (Or.inr ⟨1 - 2 * w, 1 - 2 * u, 1 - 2 * v, by linarith, by linarith,
        by linarith, by linarith, fun i => by
          rw [hp i]; simp only [Spec.midpoint]
          linear_combination (a i + b i + c i) * hs⟩))
  · rintro (⟨u, v, w, hu, hv, hw, hs, hp⟩ | ⟨u, v, w, hu, hv, hw, hs, hp⟩ |
      ⟨u, v, w, hu, hv, hw, hs, hp⟩ | ⟨u, v, w, hu, hv, hw, hs, hp⟩)
    · exact ⟨u + v / 2 + w / 2, v / 2, w / 2, by linarith, by linarith, by linarith, by linarith,
        fun i => by rw [hp i]; simp only [Spec.midpoint]; ring⟩
    · exact ⟨u / 2, u / 2 + v + w / 2, w / 2, by linarith, by linarith, by linarith, by linarith,
        fun i => by rw [hp i]; simp only [Spec.midpoint]; ring⟩
    · exact ⟨u / 2, v / 2, u / 2 + v / 2 + w, by linarith, by linarith, by linarith, by linarith,
        fun i => by rw [hp i]; simp only [Spec.midpoint]; ring⟩
    · exact ⟨u / 2 + w / 2, u / 2 + v / 2, v / 2 + w / 2, by linarith, by linarith, by linarith,
        by linarith, fun i => by rw [hp i]; simp only [Spec.midpoint]; ring⟩

private theorem bary_unique (a b c : Point 2 K) (hA : Spec.signedArea a b c ≠ 0)
    {u v w u' v' w' : K} (h : u + v + w = 1) (h' : u' + v' + w' = 1)
    (he : ∀ i, u * a i + v * b i + w * c i = u' * a i + v' * b i + w' * c i) :
    u = u' ∧ v = v' ∧ w = w' := by
  have e0 := he 0
  have e1 := he 1
  have hd : (b 0 - a 0) * (c 1 - a 1) - (b 1 - a 1) * (c 0 - a 0) ≠ 0 := by
    intro h0; apply hA; unfold Spec.signedArea; rw [h0, zero_div]
  have hu : u = 1 - v - w := by linear_combination h
  have hu' : u' = 1 - v' - w' := by linear_combination h'
  have hv : (v - v') * ((b 0 - a 0) * (c 1 - a 1) - (b 1 - a 1) * (c 0 - a 0)) = 0 := by
    rw [hu, hu'] at e0 e1
    linear_combination (c 1 - a 1) * e0 - (c 0 - a 0) * e1
  have hw : (w - w') * ((b 0 - a 0) * (c 1 - a 1) - (b 1 - a 1) * (c 0 - a 0)) = 0 := by
    rw [hu, hu'] at e0 e1
    linear_combination (b 0 - a 0) * e1 - (b 1 - a 1) * e0
  have hv := (mul_eq_zero.1 hv).resolve_right hd
  have hw := (mul_eq_zero.1 hw).resolve_right hd
  refine ⟨?_, by linear_combination hv, by linear_combination hw⟩
  rw [hu, hu']; linear_combination -hv - hw

/-- C16.  The interiors of the four children of a non-degenerate triangle are pairwise disjoint. -/
theorem C16_children_interiors_disjoint (a b c p : Point 2 K) (hA : Spec.signedArea a b c ≠ 0)
    (r s : Nat) (t t' : List (Point 2 K)) (hr : r ≠ s)
    (ht : [[a, Spec.midpoint a b, Spec.midpoint c a], [Spec.midpoint a b, b, Spec.midpoint b c],
       [Spec.midpoint c a, Spec.midpoint b c, c],
       [Spec.midpoint a b, Spec.midpoint b c, Spec.midpoint c a]][r]? = some t)
    (ht' : [[a, Spec.midpoint a b, Spec.midpoint c a], [Spec.midpoint a b, b, Spec.midpoint b c],
       [Spec.midpoint c a, Spec.midpoint b c, c],
       [Spec.midpoint a b, Spec.midpoint b c, Spec.midpoint c a]][s]? = some t') :
    ¬ ((∃ x y z, t = [x, y, z] ∧ Spec.InTriInterior x y z p) ∧
       (∃ x y z, t' = [x, y, z] ∧ Spec.InTriInterior x y z p)) := by
  -- barycentric coordinates of `p` in the parent, for each child
  have key : ∀ q t, [[a, Spec.midpoint a b, Spec.midpoint c a], [Spec.midpoint a b, b, Spec.midpoint b c],
       [Spec.midpoint c a, Spec.midpoint b c, c],
       [Spec.midpoint a b, Spec.midpoint b c, Spec.midpoint c a]][q]? = some t →
      (∃ x y z, t = [x, y, z] ∧ Spec.InTriInterior x y z p) →
      ∃ u v w : K, u + v + w = 1 ∧ (∀ i, p i = u * a i + v * b i + w * c i) ∧
        ((q = 0 ∧ 1/2 < u ∧ v < 1/2 ∧ w < 1/2) ∨ (q = 1 ∧ 1/2 < v ∧ u < 1/2 ∧ w < 1/2) ∨
         (q = 2 ∧ 1/2 < w ∧ u < 1/2 ∧ v < 1/2) ∨ (q = 3 ∧ u < 1/2 ∧ v < 1/2 ∧ w < 1/2)) := by
    rintro q t hq ⟨x, y, z, rfl, u, v, w, hu, hv, hw, hs, hp⟩
    match q, hq with
    | 0, hq =>
      simp at hq; obtain ⟨rfl, rfl, rfl⟩ := hq
      exact ⟨u + v / 2 + w / 2, v / 2, w / 2, by linarith,
        fun i => by rw [hp i]; simp only [Spec.midpoint]; ring,
        Or.inl ⟨rfl, by linarith, by linarith, by linarith⟩⟩
    | 1, hq =>
      simp at hq; obtain ⟨rfl, rfl, rfl⟩ := hq
      exact ⟨u / 2, u / 2 + v + w / 2, w / 2, by linarith,
        fun i => by rw [hp i]; simp only [Spec.midpoint]; ring,
        Or.inr (Or.inl ⟨rfl, by linarith, by linarith, by linarith⟩)⟩
    | 2, hq =>
      simp at hq; obtain ⟨rfl, rfl, rfl⟩ := hq
      exact ⟨u / 2, v / 2, u / 2 + v / 2 + w, by linarith,
        fun i => by rw [hp i]; simp only [Spec.midpoint]; ring,
        Or.inr (Or.inr (Or.inl ⟨rfl, by linarith, by linarith, by linarith⟩))⟩
    | 3, hq =>
      simp at hq; obtain ⟨rfl, rfl, rfl⟩ := hq
      exact ⟨u / 2 + w / 2, u / 2 + v / 2, v / 2 + w / 2, by linarith,
        fun i => by rw [hp i]; simp only [Spec.midpoint]; ring,
        Or.inr (Or.inr (Or.inr ⟨rfl, by linarith, by linarith, by linarith⟩))⟩
    | n + 4, hq => simp at hq
  rintro ⟨g1, g2⟩
  obtain ⟨u, v, w, h1, h2, h3⟩ := key r t ht g1
  obtain ⟨u', v', w', h1', h2', h3'⟩ := key s t' ht' g2
  obtain ⟨rfl, rfl, rfl⟩ := bary_unique a b c hA h1 h1' (fun i => (h2 i).symm.trans (h2' i))
  rcases h3 with ⟨rfl, a1, a2, a3⟩ | ⟨rfl, a1, a2, a3⟩ | ⟨rfl, a1, a2, a3⟩ | ⟨rfl, a1, a2, a3⟩ <;>
  rcases h3' with ⟨rfl, b1, b2, b3⟩ | ⟨rfl, b1, b2, b3⟩ | ⟨rfl, b1, b2, b3⟩ | ⟨rfl, b1, b2, b3⟩ <;>
  first | exact hr rfl | linarith

end Ordered

/-- Two triangles sharing an edge (in opposite directions) over the rationals. -/
private def sampleMesh : Mesh (Point 2 ℚ) :=
  ⟨[![0, 0], ![1, 0], ![1, 1], ![0, 1]], [[0, 1, 2], [0, 2, 3]]⟩

example : Spec.ValidTri sampleMesh := by
  intro c hc
  simp [sampleMesh] at hc
  rcases hc with rfl | rfl <;> exact ⟨_, _, _, rfl, by simp [sampleMesh]⟩
example : (refineUniformly id sampleMesh).map (·.cells) =
    some [[0, 1, 2], [1, 3, 4], [2, 4, 5], [1, 4, 2], [0, 2, 6], [2, 5, 7], [6, 7, 8], [2, 7, 6]] := by
  decide +kernel
example : Spec.totalArea sampleMesh = some 1 := by
  simp [sampleMesh, Spec.totalArea, Spec.cellArea, Spec.coords, Spec.signedArea, List.mapM_cons]
  norm_num
example : Spec.signedArea (K := ℚ) ![0, 0] ![1, 0] ![1, 1] ≠ 0 := by
  simp [Spec.signedArea]

end Fenris
