import Verif.Props.Clip
/-! # C50: polygon areas and fan triangulations -/
set_option autoImplicit false
set_option linter.unusedSectionVars false

namespace Fenris.Geometry
open Fenris.Spec Fenris.Clip
variable {K : Type} [Field K] [LinearOrder K] [IsStrictOrderedRing K] {d : Nat}

/-! ### Closed paths -/

/-- The edges of a polygon as the pairs of the closed path. -/
theorem edges_eq_cyclicPairs (V : List (Point d K)) : ConvexPolygon.edges V = cyclicPairs V := by
  cases V with
  | nil => rfl
  | cons v W =>
    simp only [ConvexPolygon.edges, windows2, cyclicPairs, List.take_succ_cons, List.take_zero,
      List.cons_append, List.tail_cons, List.rotate_cons_succ, List.rotate_zero]
    have : v :: (W ++ [v]) = (v :: W) ++ [v] := rfl
    rw [this, ← List.append_nil (W ++ [v]), List.zip_append (by simp)]
    simp

theorem vertex_eq (V : List (Point d K)) (i : Nat) (hi : i < V.length) :
    SimplePolygon.vertex V i = V[i] := by
  rw [SimplePolygon.vertex, Nat.mod_eq_of_lt hi, List.getD_eq_getElem?_getD,
    List.getElem?_eq_getElem hi, Option.getD_some]

/-- The loop over vertex indices visits the edges. -/
theorem range_edges (V : List (Point d K)) :
    (List.range V.length).map (fun i => (SimplePolygon.vertex V (i + 0), SimplePolygon.vertex V (i + 1))) =
      cyclicPairs V := by
  apply List.ext_getElem
  · simp [cyclicPairs]
  · intro i h1 h2
    have hi : i < V.length := by simpa using h1
    have hm : (i + 1) % V.length < V.length := Nat.mod_lt _ (by omega)
    have hv : SimplePolygon.vertex V (i + 1) = V[(i + 1) % V.length] := by
      rw [SimplePolygon.vertex, List.getD_eq_getElem?_getD, List.getElem?_eq_getElem hm,
        Option.getD_some]
    simp only [List.getElem_map, List.getElem_range, cyclicPairs, List.getElem_zip,
      List.getElem_rotate, hv, vertex_eq V (i + 0) (by omega)]
    rfl

theorem foldl_add_eq_sum {α M : Type} [AddCommMonoid M] (g : α → M) (l : List α) (z : M) :
    l.foldl (fun acc x => acc + g x) z = z + (l.map g).sum := by
  induction l generalizing z with
  | nil => simp
  | cons a l ih => rw [List.foldl_cons, ih, List.map_cons, List.sum_cons, add_assoc]

/-- A telescoping sum over a path. -/
theorem pairs_telescope {α M : Type} [AddCommGroup M] (h : α → M) (a : α) (l : List α) :
    ((pairs (a :: l)).map fun e => h e.2 - h e.1).sum = h ((a :: l).getLast (by simp)) - h a := by
  induction l generalizing a with
  | nil => simp [pairs_single]
  | cons b l ih =>
    rw [pairs_cons_cons, List.map_cons, List.sum_cons, ih, List.getLast_cons (l := b :: l) (by simp)]
    abel

/-- A telescoping sum over a closed path vanishes. -/
theorem cyclic_telescope {M : Type} [AddCommGroup M] (h : Point d K → M) (V : List (Point d K)) :
    ((cyclicPairs V).map fun e => h e.2 - h e.1).sum = 0 := by
  cases V with
  | nil => rfl
  | cons v W =>
    rw [← edges_eq_cyclicPairs]
    have : ConvexPolygon.edges (v :: W) = pairs (v :: (W ++ [v])) := rfl
    rw [this, pairs_telescope]
    simp

private theorem sum_map_add' {α M : Type} [AddCommMonoid M] (l : List α) (f g : α → M) :
    (l.map fun x => f x + g x).sum = (l.map f).sum + (l.map g).sum := by
  induction l with
  | nil => simp
  | cons a l ih =>
    simp only [List.map_cons, List.sum_cons, ih]
    exact add_add_add_comm _ _ _ _

/-- C50: the signed area is Gauss's area formula. -/
theorem C50_signed_area (V : List (Point 2 K)) : SimplePolygon.signedArea V = shoelace V := by
  rw [SimplePolygon.signedArea, foldl_add_eq_sum, shoelace, ← range_edges, List.map_map, zero_add, mul_comm]
  congr 1
  have h0 := cyclic_telescope (fun p : Point 2 K => p 0 * p 1) V
  rw [← range_edges, List.map_map] at h0
  rw [← add_zero (List.sum (List.map _ (List.range V.length))), ← h0] 
  conv_rhs => rw [← add_zero (List.sum _), ← h0, ← sum_map_add']
  rw [add_comm, h0, zero_add]
  congr 1
  apply List.map_congr_left
  intro i _
  simp only [Function.comp_apply]
  ring

private theorem cyclicPairs_rotate_perm {α : Type} (V : List α) (k : Nat) :
    (cyclicPairs (V.rotate k)).Perm (cyclicPairs V) := by
  have : cyclicPairs (V.rotate k) = (cyclicPairs V).rotate k := by
    apply List.ext_getElem
    · simp [cyclicPairs]
    · intro i h1 h2
      simp only [cyclicPairs, List.getElem_zip, List.getElem_rotate, List.length_rotate, List.length_zip,
        min_self, List.rotate_rotate]
      congr 2
      rw [Nat.mod_add_mod, add_assoc]
  rw [this]
  exact List.rotate_perm _ _

/-- C50: the signed area does not depend on the vertex at which the polygon starts. -/
theorem C50_rotate (V : List (Point 2 K)) (k : Nat) :
    SimplePolygon.signedArea (V.rotate k) = SimplePolygon.signedArea V := by
  rw [C50_signed_area, C50_signed_area, shoelace, shoelace,
    ((cyclicPairs_rotate_perm V k).map _).sum_eq]

/-- C50: the signed area changes its sign when the vertices are reversed. -/
theorem C50_reverse (V : List (Point 2 K)) :
    SimplePolygon.signedArea V.reverse = -SimplePolygon.signedArea V := by
  have hp : ∀ l : List (Point 2 K), pairs l.reverse = ((pairs l).map Prod.swap).reverse := by
    intro l
    induction l with
    | nil => rfl
    | cons a l ih =>
      cases l with
      | nil => rfl
      | cons b l =>
        have happ : ∀ (M : List (Point 2 K)) (x y : Point 2 K), pairs (M ++ [x] ++ [y]) = pairs (M ++ [x]) ++ [(x, y)] := by
          intro M x y
          induction M with
          | nil => rfl
          | cons m M ihM =>
            cases M with
            | nil => rfl
            | cons m' M =>
              simp only [List.cons_append, pairs_cons_cons] at ihM ⊢
              rw [ihM]
        rw [pairs_cons_cons, List.map_cons, List.reverse_cons (as := List.map _ _), ← ih,
          List.reverse_cons (as := b :: l), List.reverse_cons, happ]
        rfl
  cases V with
  | nil => simp [SimplePolygon.signedArea]
  | cons v W =>
    have e1 : SimplePolygon.signedArea (v :: W).reverse = SimplePolygon.signedArea (v :: W.reverse) := by
      rw [← C50_rotate (v :: W.reverse) 1]
      congr 1
      simp
    have e2 : cyclicPairs (v :: W.reverse) = ((cyclicPairs (v :: W)).map Prod.swap).reverse := by
      rw [← edges_eq_cyclicPairs, ← edges_eq_cyclicPairs]
      have a1 : ConvexPolygon.edges (v :: W.reverse) = pairs (v :: W ++ [v]).reverse := by
        simp [ConvexPolygon.edges, windows2, pairs]
      rw [a1, hp]
      rfl
    rw [e1, C50_signed_area, C50_signed_area, shoelace, shoelace, e2, List.map_reverse, List.map_map,
      List.sum_reverse]
    have : ∀ l : List (Point 2 K × Point 2 K),
        (l.map ((fun e : Point 2 K × Point 2 K => e.1 0 * e.2 1 - e.1 1 * e.2 0) ∘ Prod.swap)).sum =
        -(l.map fun e : Point 2 K × Point 2 K => e.1 0 * e.2 1 - e.1 1 * e.2 0).sum := by
      intro l
      induction l with
      | nil => simp
      | cons a l ih =>
        simp only [List.map_cons, List.sum_cons, ih, Function.comp_apply, Prod.fst_swap, Prod.snd_swap]
        ring
    rw [this]
    ring

/-- C50: the signed area is invariant under translation. -/
theorem C50_translate (V : List (Point 2 K)) (t : Point 2 K) :
    SimplePolygon.signedArea (V.map fun v => v + t) = SimplePolygon.signedArea V := by
  rw [C50_signed_area, C50_signed_area, shoelace, shoelace]
  have e : cyclicPairs (V.map fun v => v + t) = (cyclicPairs V).map fun e => (e.1 + t, e.2 + t) := by
    rw [cyclicPairs, cyclicPairs, ← List.map_rotate, List.zip_map]
    rfl
  have h0 := cyclic_telescope (fun p : Point 2 K => t 0 * p 1 - t 1 * p 0) V
  congr 1
  rw [e, List.map_map]
  conv_rhs => rw [← add_zero (List.sum _), ← h0, ← sum_map_add']
  congr 1
  apply List.map_congr_left
  intro i _
  simp only [Function.comp_apply, Pi.add_apply]
  ring

/-- C50: the triangulation about any point consists of one triangle per edge, and its signed areas add
up to the signed area of the polygon. -/
theorem C50_fan_at_point (V : List (Point 2 K)) (p : Point 2 K) :
    (SimplePolygon.triangulateAtPoint V p) = (cyclicPairs V).map (fun e => ⟨p, e.1, e.2⟩) ∧
    ((SimplePolygon.triangulateAtPoint V p).map Tri.signedArea).sum = SimplePolygon.signedArea V := by
  have e : (SimplePolygon.triangulateAtPoint V p) = (cyclicPairs V).map (fun e => ⟨p, e.1, e.2⟩) := by
    rw [SimplePolygon.triangulateAtPoint, ← range_edges, List.map_map]
    rfl
  refine ⟨e, ?_⟩
  rw [e, List.map_map, C50_signed_area, shoelace, ← List.sum_map_mul_left]
  have h0 := cyclic_telescope (fun q : Point 2 K => 1 / 2 * (p 1 * q 0 - p 0 * q 1)) V
  conv_rhs => rw [← add_zero (List.sum _), ← h0, ← sum_map_add']
  congr 1
  apply List.map_congr_left
  intro i _
  simp only [Function.comp_apply, Tri.signedArea]
  ring

private theorem triangulate_eq (v : Point d K) (W : List (Point d K)) :
    SimplePolygon.triangulate (v :: W) = (pairs W).map fun e => ⟨v, e.1, e.2⟩ := by
  rw [SimplePolygon.triangulate, if_neg (by simp)]
  apply List.ext_getElem
  · simp [pairs]
  · intro i h1 h2
    have hi : i + 1 < W.length := by
      simp [pairs] at h2
      omega
    simp only [List.getElem_map, List.getElem_range', pairs, List.getElem_zip, List.getElem_tail]
    rw [vertex_eq (v :: W) 0 (by simp), vertex_eq (v :: W) (1 + 1 * i + 0) (by simp; omega),
      vertex_eq (v :: W) (1 + 1 * i + 1) (by simp; omega)]
    have a : (v :: W)[1 + 1 * i + 0]'(by simp; omega) = W[i] := by
      have : 1 + 1 * i + 0 = i + 1 := by ring
      simp only [this, List.getElem_cons_succ]
    have b : (v :: W)[1 + 1 * i + 1]'(by simp; omega) = W[i + 1] := by
      have : 1 + 1 * i + 1 = i + 1 + 1 := by ring
      simp only [this, List.getElem_cons_succ]
    rw [a, b]
    rfl

/-- C50: the fan triangulation connects the first vertex with the edges not incident to it. It has two
triangles less than the polygon has vertices, and its signed areas add up to the signed area of the
polygon. -/
theorem C50_fan (V : List (Point 2 K)) :
    (SimplePolygon.triangulate V).length = V.length - 2 ∧
    ((SimplePolygon.triangulate V).map Tri.signedArea).sum = SimplePolygon.signedArea V := by
  cases V with
  | nil => exact ⟨rfl, by rw [C50_signed_area]; simp [SimplePolygon.triangulate, shoelace, cyclicPairs]⟩
  | cons v W =>
    rw [triangulate_eq]
    refine ⟨by simp [pairs], ?_⟩
    -- the fan about the first vertex has two more triangles, of area zero
    have h := (C50_fan_at_point (v :: W) v)
    rw [h.1] at h
    rw [← h.2, ← edges_eq_cyclicPairs, List.map_map, List.map_map]
    have hz1 : ∀ b : Point 2 K, Tri.signedArea ⟨v, v, b⟩ = 0 := by intro b; simp [Tri.signedArea]
    have hz2 : ∀ b : Point 2 K, Tri.signedArea ⟨v, b, v⟩ = 0 := by intro b; simp [Tri.signedArea]
    have hclose : ∀ M : List (Point 2 K), ((pairs (M ++ [v])).map (Tri.signedArea ∘ fun e => ⟨v, e.1, e.2⟩)).sum =
        ((pairs M).map (Tri.signedArea ∘ fun e => ⟨v, e.1, e.2⟩)).sum := by
      intro M
      induction M with
      | nil => rfl
      | cons a M ih =>
        cases M with
        | nil => simp [pairs, hz2]
        | cons b M =>
          simp only [List.cons_append, pairs_cons_cons, List.map_cons, List.sum_cons] at ih ⊢
          rw [ih]
    have hedge : ConvexPolygon.edges (v :: W) = pairs (v :: (W ++ [v])) := rfl
    rw [hedge]
    cases W with
    | nil => simp [pairs, hz1]
    | cons w W =>
      rw [List.cons_append, pairs_cons_cons, List.map_cons, List.sum_cons, ← List.cons_append, hclose]
      simp [hz1]

/-- C50: the two fan triangulations in the code base agree. -/
theorem C50_convex_triangulate (V : List (Point 2 K)) :
    ConvexPolygon.triangulate V = SimplePolygon.triangulate V := by
  cases V with
  | nil => rfl
  | cons v W =>
    rw [triangulate_eq, ConvexPolygon.triangulate]
    congr 1
    have hedge : ConvexPolygon.edges (v :: W) = pairs (v :: (W ++ [v])) := rfl
    rw [hedge]
    cases W with
    | nil => rfl
    | cons w W =>
      rw [List.cons_append, pairs_cons_cons]
      show ((_ :: _).take ((W.length + 1))).drop 1 = _
      rw [List.take_succ_cons, List.drop_succ_cons, List.drop_zero]
      induction W generalizing w with
      | nil => rfl
      | cons a W ih =>
        rw [List.cons_append, pairs_cons_cons, pairs_cons_cons, List.length_cons, List.take_succ_cons, ih _ rfl]

/-- C50: every triangle in the fan of a convex polygon is counter-clockwise or degenerate, so that the
signed area of the polygon is not negative; for a strictly convex polygon all are positive. -/
theorem C50_fan_orientation (V : List (Point 2 K)) :
    (ConvexCcw V → (∀ t ∈ SimplePolygon.triangulate V, 0 ≤ t.signedArea) ∧ 0 ≤ SimplePolygon.signedArea V) ∧
    (StrictlyConvexCcw V → (∀ t ∈ SimplePolygon.triangulate V, 0 < t.signedArea) ∧
      (3 ≤ V.length → SimplePolygon.orientation V = true)) := by
  have harea : ∀ a b c : Point 2 K, Tri.signedArea ⟨a, b, c⟩ = 1 / 2 * orient2 a b c := fun _ _ _ => rfl
  have hsub : ∀ t ∈ SimplePolygon.triangulate V, [t.a, t.b, t.c].Sublist V := by
    intro t ht
    cases V with
    | nil => simp [SimplePolygon.triangulate] at ht
    | cons v W =>
      rw [triangulate_eq, List.mem_map] at ht
      obtain ⟨e, he, rfl⟩ := ht
      exact (pairs_sublist he).cons_cons v
  have htri : ∀ t : Tri 2 K, t.signedArea = 1 / 2 * orient2 t.a t.b t.c := fun _ => rfl
  constructor
  · intro h
    have h1 : ∀ t ∈ SimplePolygon.triangulate V, 0 ≤ t.signedArea := by
      intro t ht
      rw [htri]
      have := h _ _ _ (hsub t ht)
      positivity
    refine ⟨h1, ?_⟩
    rw [← (C50_fan V).2]
    apply List.sum_nonneg
    intro x hx
    obtain ⟨t, ht, rfl⟩ := List.mem_map.mp hx
    exact h1 t ht
  · intro h
    have h1 : ∀ t ∈ SimplePolygon.triangulate V, 0 < t.signedArea := by
      intro t ht
      rw [htri]
      have := h _ _ _ (hsub t ht)
      positivity
    refine ⟨h1, fun hl => ?_⟩
    rw [SimplePolygon.orientation, decide_eq_true_iff, ← (C50_fan V).2]
    apply List.sum_pos
    · intro x hx
      obtain ⟨t, ht, rfl⟩ := List.mem_map.mp hx
      exact h1 t ht
    · intro e
      have := (C50_fan V).1
      rw [← List.length_map (f := Tri.signedArea), e] at this
      simp at this
      omega

theorem inTriangle_of (a b c x : Point 2 K) (hpos : 0 < orient2 a b c) (h1 : 0 ≤ orient2 b c x)
    (h2 : 0 ≤ orient2 c a x) (h3 : 0 ≤ orient2 a b x) : InTriangle ⟨a, b, c⟩ x := by
  have hsum : orient2 b c x + orient2 c a x + orient2 a b x = orient2 a b c := by
    simp only [orient2]
    ring
  refine ⟨orient2 b c x / orient2 a b c, orient2 c a x / orient2 a b c, orient2 a b x / orient2 a b c,
    div_nonneg h1 hpos.le, div_nonneg h2 hpos.le, div_nonneg h3 hpos.le, ?_, ?_⟩
  · rw [← add_div, ← add_div, hsum, div_self hpos.ne']
  · have e0 : x 0 * orient2 a b c = orient2 b c x * a 0 + orient2 c a x * b 0 + orient2 a b x * c 0 := by
      simp only [orient2]
      ring
    have e1 : x 1 * orient2 a b c = orient2 b c x * a 1 + orient2 c a x * b 1 + orient2 a b x * c 1 := by
      simp only [orient2]
      ring
    have hne := hpos.ne'
    generalize orient2 b c x = p at *
    generalize orient2 c a x = q at *
    generalize orient2 a b x = r at *
    generalize orient2 a b c = s at *
    funext i
    fin_cases i
    · show x 0 = p / s * a 0 + q / s * b 0 + r / s * c 0
      field_simp
      linear_combination e0
    · show x 1 = p / s * a 1 + q / s * b 1 + r / s * c 1
      field_simp
      linear_combination e1

private theorem orient_comb (v y a b c : Point 2 K) (α β γ : K) (h : α + β + γ = 1) :
    orient2 v y (fun i => α * a i + β * b i + γ * c i) =
      α * orient2 v y a + β * orient2 v y b + γ * orient2 v y c := by
  have : α = 1 - β - γ := by linarith
  subst this
  simp only [orient2]
  ring

/-- C50: the fan of a strictly convex polygon with at least three vertices covers exactly the polygon,
and the interiors of its triangles are disjoint. -/
theorem C50_fan_partition (V : List (Point 2 K)) (hV : StrictlyConvexCcw V) (lV : 3 ≤ V.length) :
    (∀ x, x ∈ hull V ↔ ∃ t ∈ SimplePolygon.triangulate V, InTriangle t x) ∧
    (SimplePolygon.triangulate V).Pairwise fun t t' => ∀ x, ¬(InsideTriangle t x ∧ InsideTriangle t' x) := by
  match V, lV with
  | v :: w :: W, lV =>
    rw [triangulate_eq]
    constructor
    · intro x
      constructor
      · intro hx
        have he := fun e he => edges_nonneg (v :: w :: W) (fun a b c h => (hV a b c h).le) e he x hx
        obtain ⟨e, hmem, h1, h2, h3⟩ := fan_find v x w W (by rintro rfl; simp at lV)
          (fun e h => he e (List.mem_cons_of_mem _ h)) (he (v, w) List.mem_cons_self)
        refine ⟨_, List.mem_map.mpr ⟨e, hmem, rfl⟩, ?_⟩
        exact inTriangle_of v e.1 e.2 x (hV _ _ _ ((pairs_sublist hmem).cons_cons v)) h2 h3 h1
      · rintro ⟨t, ht, hx⟩
        obtain ⟨e, hmem, rfl⟩ := List.mem_map.mp ht
        obtain ⟨α, β, γ, h1, h2, h3, hs, rfl⟩ := hx
        have hsub := ((pairs_sublist hmem).cons_cons v).subset
        have sub := subset_convexHull K {y | y ∈ v :: w :: W}
        have := Convex.sum_mem (convex_convexHull K {y | y ∈ v :: w :: W}) (t := Finset.univ)
          (w := ![α, β, γ]) (z := ![v, e.1, e.2]) (by
            intro i _
            fin_cases i
            · exact h1
            · exact h2
            · exact h3) (by
            simp [Fin.sum_univ_three, hs]) (by
            intro i _
            fin_cases i
            · exact sub (hsub (by simp))
            · exact sub (hsub (by simp))
            · exact sub (hsub (by simp)))
        simp only [Fin.sum_univ_three, Matrix.cons_val_zero, Matrix.cons_val_one, Matrix.cons_val_two,
          Matrix.head_cons, Matrix.tail_cons] at this
        exact this
    · rw [List.pairwise_map]
      have hgen : ∀ M : List (Point 2 K), (∀ a b, [a, b].Sublist M → 0 < orient2 v a b) →
          (pairs M).Pairwise fun e e' => ∀ x,
            ¬(InsideTriangle (⟨v, e.1, e.2⟩ : Tri 2 K) x ∧ InsideTriangle ⟨v, e'.1, e'.2⟩ x) := by
        intro M hM
        induction M with
        | nil => exact List.Pairwise.nil
        | cons a M ih =>
          cases M with
          | nil => exact List.Pairwise.nil
          | cons b l =>
            rw [pairs_cons_cons]
            refine List.Pairwise.cons ?_ (ih fun x y h => hM x y (h.cons a))
            rintro e' he' x ⟨⟨α, β, γ, h1, h2, h3, hs, hx⟩, ⟨α', β', γ', h1', h2', h3', hs', hx'⟩⟩
            have hab : 0 < orient2 v a b := hM a b (((List.nil_sublist l).cons_cons b).cons_cons a)
            have hneg : orient2 v b x < 0 := by
              rw [hx, orient_comb v b _ _ _ _ _ _ hs]
              have e1 : orient2 v b v = 0 := orient2_orient.self' v b
              have e2 : orient2 v b b = 0 := orient2_orient.self'' b v
              have e3 : orient2 v b a = -orient2 v a b := by
                simp only [orient2]
                ring
              simp only [e1, e2, e3]
              have := mul_pos h2 hab
              linarith
            have hfst : 0 ≤ orient2 v b e'.1 := by
              rcases List.mem_cons.mp (mem_of_mem_pairs _ _ he').1 with h | h
              · rw [h, orient2_orient.self'']
              · exact (hM b e'.1 (((List.singleton_sublist.mpr h).cons_cons b).cons a)).le
            have hsnd : 0 ≤ orient2 v b e'.2 := by
              rcases List.mem_cons.mp (mem_of_mem_pairs _ _ he').2 with h | h
              · rw [h, orient2_orient.self'']
              · exact (hM b e'.2 (((List.singleton_sublist.mpr h).cons_cons b).cons a)).le
            have hnn : 0 ≤ orient2 v b x := by
              rw [hx', orient_comb v b _ _ _ _ _ _ hs']
              have e1 : orient2 v b v = 0 := orient2_orient.self' v b
              simp only [e1]
              have := mul_nonneg h2'.le hfst
              have := mul_nonneg h3'.le hsnd
              linarith
            linarith
      exact hgen (w :: W) fun a b h => hV v a b (h.cons_cons v)

/-! ### Polygons in space -/

private theorem smul_sum' {M : Type} [AddCommGroup M] [Module K M] {α : Type} (c : K) (l : List α) (g : α → M) :
    c • (l.map g).sum = (l.map fun x => c • g x).sum := by
  induction l with
  | nil => simp
  | cons a l ih => simp [ih]

/-- C50: the two area vectors in the code base agree for polygons with at least three vertices, and are
half the sum of the normals of the fan about any point. -/
theorem C50_area_vector (V : List (Point 3 K)) (p : Point 3 K) :
    SimplePolygon.areaVector V =
      ((SimplePolygon.triangulateAtPoint V p).map fun t => (1 / 2 : K) • t.normalDir).sum ∧
    SimplePolygon.areaVector V =
      ((SimplePolygon.triangulate V).map fun t => (1 / 2 : K) • t.normalDir).sum ∧
    (3 ≤ V.length → SimplePolygon.computeAreaVector V = some (SimplePolygon.areaVector V)) := by
  have hat : ∀ q : Point 3 K, SimplePolygon.areaVector V =
      ((SimplePolygon.triangulateAtPoint V q).map fun t => (1 / 2 : K) • t.normalDir).sum := by
    intro q
    have e : SimplePolygon.triangulateAtPoint V q = (cyclicPairs V).map (fun e => ⟨q, e.1, e.2⟩) := by
      rw [SimplePolygon.triangulateAtPoint, ← range_edges, List.map_map]
      rfl
    have hf := foldl_add_eq_sum (fun i => cross3 (SimplePolygon.vertex V (i + 0)) (SimplePolygon.vertex V (i + 1)))
      (List.range V.length) 0
    rw [SimplePolygon.areaVector, hf, zero_add, e, List.map_map, smul_sum']
    have e2 : (List.range V.length).map (fun i => (1 / 2 : K) •
        cross3 (SimplePolygon.vertex V (i + 0)) (SimplePolygon.vertex V (i + 1))) =
        (cyclicPairs V).map fun e => (1 / 2 : K) • cross3 e.1 e.2 := by
      rw [← range_edges, List.map_map]
      rfl
    rw [e2]
    have h0 := cyclic_telescope (fun r : Point 3 K => (1 / 2 : K) • cross3 r q) V
    rw [← add_zero (List.sum (List.map (fun e : Point 3 K × Point 3 K => (1 / 2 : K) • cross3 e.1 e.2) (cyclicPairs V))), ← h0, ← sum_map_add']
    congr 1
    apply List.map_congr_left
    intro e _
    funext i
    fin_cases i <;>
      simp [Tri.normalDir, cross3] <;> ring
  have hfan : SimplePolygon.areaVector V =
      ((SimplePolygon.triangulate V).map fun t => (1 / 2 : K) • t.normalDir).sum := by
    cases V with
    | nil => simp [SimplePolygon.areaVector, SimplePolygon.triangulate]
    | cons v W =>
      have e : SimplePolygon.triangulateAtPoint (v :: W) v = (cyclicPairs (v :: W)).map (fun e => ⟨v, e.1, e.2⟩) := by
        rw [SimplePolygon.triangulateAtPoint, ← range_edges, List.map_map]
        rfl
      rw [hat v, e, triangulate_eq, ← edges_eq_cyclicPairs, List.map_map, List.map_map]
      have hz1 : ∀ b : Point 3 K, Tri.normalDir ⟨v, v, b⟩ = 0 := by
        intro b; funext i; fin_cases i <;> simp [Tri.normalDir, cross3]
      have hz2 : ∀ b : Point 3 K, Tri.normalDir ⟨v, b, v⟩ = 0 := by
        intro b; funext i; fin_cases i <;> simp [Tri.normalDir, cross3]
      have hclose : ∀ M : List (Point 3 K), ((pairs (M ++ [v])).map ((fun t : Tri 3 K => (1 / 2 : K) • t.normalDir) ∘ fun e => ⟨v, e.1, e.2⟩)).sum =
          ((pairs M).map ((fun t : Tri 3 K => (1 / 2 : K) • t.normalDir) ∘ fun e => ⟨v, e.1, e.2⟩)).sum := by
        intro M
        induction M with
        | nil => rfl
        | cons a M ih =>
          cases M with
          | nil => simp [pairs, hz2]
          | cons b M =>
            simp only [List.cons_append, pairs_cons_cons, List.map_cons, List.sum_cons] at ih ⊢
            rw [ih]
      have hedge : ConvexPolygon.edges (v :: W) = pairs (v :: (W ++ [v])) := rfl
      rw [hedge]
      cases W with
      | nil => simp [pairs, hz1]
      | cons w W =>
        rw [List.cons_append, pairs_cons_cons, List.map_cons, List.sum_cons, ← List.cons_append, hclose]
        simp [hz1]
  refine ⟨hat p, hfan, fun hl => ?_⟩
  rw [SimplePolygon.computeAreaVector, if_pos hl, hfan]
  have hf := foldl_add_eq_sum (fun i => (1 / 2 : K) • cross3 (fun k => V.getD i 0 k - V.getD 0 0 k)
        (fun k => V.getD (i + 1) 0 k - V.getD 0 0 k)) (List.range' 1 (V.length - 1 - 1)) 0
  rw [hf, zero_add, SimplePolygon.triangulate, if_neg (by omega), List.map_map]
  congr 2
  apply List.map_congr_left
  intro i hi
  obtain ⟨hi1, hi2⟩ : 1 ≤ i ∧ i < 1 + (V.length - 1 - 1) := List.mem_range'_1.mp hi
  have g : ∀ j, j < V.length → SimplePolygon.vertex V j = V.getD j 0 := by
    intro j hj
    rw [vertex_eq V j hj, List.getD_eq_getElem?_getD, List.getElem?_eq_getElem hj, Option.getD_some]
  simp only [Function.comp_apply, Tri.normalDir, add_zero]
  rw [g 0 (by omega), g i (by omega), g (i + 1) (by omega)]

/-! ### Examples -/

/-- An L-shaped polygon of area three. -/
private def ell : List (Point 2 ℚ) := [![0, 0], ![2, 0], ![2, 1], ![1, 1], ![1, 2], ![0, 2]]

example : SimplePolygon.signedArea ell = 3 := by decide +kernel
example : SimplePolygon.signedArea (ell.rotate 2) = 3 := by decide +kernel
example : SimplePolygon.signedArea ell.reverse = -3 := by decide +kernel
example : (SimplePolygon.triangulate ell).map Tri.signedArea = [1, 1 / 2, 1 / 2, 1] := by decide +kernel

end Fenris.Geometry
