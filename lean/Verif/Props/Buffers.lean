import Verif.Spec.Buffers
import Verif.Props.Interpolate
import Verif.Model.Element
/-! # C90: interpolation buffers -/
set_option autoImplicit false

namespace Fenris.Buffers
open Fenris.Local Fenris.Interpolate Fenris.Buffers.Spec
variable {K : Type} [Field K] [LinearOrder K] {r g : Nat}

private theorem resizeList_length {A : Type} (n : Nat) (fill : A) (l : List A) : (resizeList n fill l).length = n := by
  simp [resizeList]; omega

private theorem resizeList_getD {A : Type} (n : Nat) (fill : A) (l : List A) (i : Nat) (hi : i < n) : (resizeList n fill l).getD i fill = l.getD i fill := by
  unfold resizeList
  rw [List.getD_eq_getElem?_getD, List.getD_eq_getElem?_getD]
  by_cases h : i < l.length
  · rw [List.getElem?_append_left (by simp; omega), List.getElem?_take, if_pos hi]
  · rw [List.getElem?_append_right (by simp; omega), List.getElem?_replicate, List.getElem?_eq_none (by omega : l.length ≤ i)]
    split_ifs <;> rfl

private theorem gather_ok (s : Nat) (u : List K) (nodes : List Nat) (h : ∀ n ∈ nodes, s * n + s ≤ u.length) :
    ∃ ul, Assembly.gather s u nodes = some ul ∧ ul.length = s * nodes.length ∧
      ∀ (I : Nat) (hI : I < nodes.length) (k : Nat), k < s → ul.getD (s * I + k) 0 = u.getD (s * nodes[I] + k) 0 := by
  induction nodes with
  | nil => exact ⟨[], by simp [Assembly.gather], by simp, by simp⟩
  | cons n nodes ih =>
    obtain ⟨ul, h1, h2, h3⟩ := ih fun m hm => h m (List.mem_cons_of_mem _ hm)
    have hn := h n (by simp)
    have hrow : (List.range s).mapM (fun i => u[s * n + i]?) = some ((List.range s).map fun i => u.getD (s * n + i) 0) := by
      apply Assembly.mapM_some_map
      intro i hi
      have := List.mem_range.1 hi
      rw [List.getD_eq_getElem?_getD, List.getElem?_eq_getElem (by omega)]
      rfl
    refine ⟨(List.range s).map (fun i => u.getD (s * n + i) 0) ++ ul, ?_, by simp [h2, Nat.mul_succ]; omega, ?_⟩
    · unfold Assembly.gather at h1 ⊢
      obtain ⟨l, hl, rfl⟩ := Option.map_eq_some_iff.1 h1
      rw [List.mapM_cons, hrow, hl]
      simp
    · intro I hI k hk
      cases I with
      | zero =>
        rw [List.getD_eq_getElem?_getD, List.getElem?_append_left (by simp; omega)]
        simp [hk]
      | succ I =>
        have e : s * (I + 1) + k - ((List.range s).map fun i => u.getD (s * n + i) 0).length = s * I + k := by
          simp [Nat.mul_succ]; omega
        rw [List.getD_eq_getElem?_getD, List.getElem?_append_right (by simp [Nat.mul_succ]; omega), e, ← List.getD_eq_getElem?_getD,
          h3 I (by simpa using hI) k hk]
        rfl

/-- What holds of a buffer between the updates: `vals` and `grads` are the basis values and the gradients that it holds. -/
private structure Holds (S : FeSpace r g K) (e : Nat) (s : Nat) (u : List K) (eb : ElementBuffer r K) (vals : List K) (grads : Option (List (Point r K)))
    (xi : Point r K) : Prop where
  element : eb.element = e
  nodes : eb.basis.nodes = S.nodes e
  valuesLength : vals.length = (S.nodes e).length
  values : eb.basis.values = vals
  rows : eb.basis.rows = r
  columnsLength : eb.basis.columns.length = (S.nodes e).length
  columns : ∀ gs, grads = some gs → eb.basis.columns = gs.map List.ofFn
  point : eb.point = xi
  uLength : eb.uLocal.length = s * (S.nodes e).length
  uValue : ∀ (I : Nat) (hI : I < (S.nodes e).length) (k : Nat), k < s → eb.uLocal.getD (s * I + k) 0 = u.getD (s * (S.nodes e)[I] + k) 0

private theorem prepare_holds (usizeMax : Nat) (S : FeSpace r g K) (buf : InterpBuffer K) (e : Nat) (u : List K) (s : Nat)
    (hu : ∀ n ∈ S.nodes e, s * n + s ≤ u.length) :
    ∃ eb, prepare usizeMax S buf e u s = some eb ∧ Holds S e s u eb (resizeList (S.nodes e).length 0 buf.basis.values) none fun _ => 0 := by
  obtain ⟨ul, h1, h2, h3⟩ := gather_ok s u (S.nodes e) hu
  have hf : fillSlice (resizeList (S.nodes e).length usizeMax buf.basis.nodes) (S.nodes e) = some (S.nodes e) := by
    rw [fillSlice, if_pos (resizeList_length _ _ _)]
  have hg : gatherInto s u (resizeList (s * (S.nodes e).length) 0 buf.uLocal) (S.nodes e) = some ul := by
    rw [gatherInto, if_pos (by rw [resizeList_length, Nat.mul_comm]), h1]
  refine ⟨⟨{ (buf.basis.resize usizeMax (S.nodes e).length r) with nodes := S.nodes e }, ul, fun _ => 0, e⟩, ?_, ?_⟩
  · simp only [prepare, BasisBuffer.populateNodes, BasisBuffer.resize, hf, Option.map_some, Option.bind_some, hg]
  · exact ⟨rfl, rfl, resizeList_length _ _ _, rfl, rfl, resizeList_length _ _ _, by simp, rfl, h2, h3⟩

private theorem update_holds (S : FeSpace r g K) (hS : ConsistentFe S) (e s : Nat) (u : List K) (eb : ElementBuffer r K) (vals : List K)
    (grads : Option (List (Point r K))) (x xi : Point r K) (what : Update) (h : Holds S e s u eb vals grads x) :
    ∃ eb', eb.update S xi what = some eb' ∧ Holds S e s u eb' (if what.hasValues then S.basis e xi else vals)
      (if what.hasGradients then some (S.gradients e xi) else grads) xi := by
  have hv : fillSlice eb.basis.values (S.basis e xi) = some (S.basis e xi) := by
    rw [fillSlice, if_pos]
    rw [h.values, h.valuesLength, (hS e xi).1]
  have hg : fillSlice eb.basis.columns ((S.gradients e xi).map List.ofFn) = some ((S.gradients e xi).map List.ofFn) := by
    rw [fillSlice, if_pos]
    rw [h.columnsLength, List.length_map, (hS e xi).2]
  have hl1 := (hS e xi).1
  have hl2 := (hS e xi).2
  obtain ⟨h1, h2, h3, h4, h5, h6, h7, h8, h9, h10⟩ := h
  cases what with
  | values =>
    refine ⟨{ eb with basis := { eb.basis with values := S.basis e xi }, point := xi }, ?_, ?_⟩
    · simp [ElementBuffer.update, Update.hasValues, Update.hasGradients, BasisBuffer.populateValues, h1, hv]
    · exact ⟨h1, h2, hl1, rfl, h5, h6, h7, rfl, h9, h10⟩
  | gradients =>
    refine ⟨{ eb with basis := { eb.basis with columns := (S.gradients e xi).map List.ofFn }, point := xi }, ?_, ?_⟩
    · simp [ElementBuffer.update, Update.hasValues, Update.hasGradients, BasisBuffer.populateGradients, h1, h5, hg]
    · exact ⟨h1, h2, h3, h4, h5, by simpa using hl2, by intro gs hgs; obtain rfl := Option.some.inj hgs; rfl, rfl, h9, h10⟩
  | both =>
    refine ⟨{ eb with basis := { eb.basis with values := S.basis e xi, columns := (S.gradients e xi).map List.ofFn }, point := xi }, ?_, ?_⟩
    · simp [ElementBuffer.update, Update.hasValues, Update.hasGradients, BasisBuffer.populateValues, BasisBuffer.populateGradients, h1, h5, hv, hg]
    · exact ⟨h1, h2, hl1, rfl, h5, by simpa using hl2, by intro gs hgs; obtain rfl := Option.some.inj hgs; rfl, rfl, h9, h10⟩

private theorem updates_holds (S : FeSpace r g K) (hS : ConsistentFe S) (e s : Nat) (u : List K) (ups : List (Point r K × Update)) :
    ∀ (eb : ElementBuffer r K) (vals : List K) (grads : Option (List (Point r K))) (x : Point r K), Holds S e s u eb vals grads x →
    ∃ eb', eb.updates S ups = some eb' ∧ Holds S e s u eb' (((latest Update.hasValues ups).map (S.basis e)).getD vals)
      (((latest Update.hasGradients ups).map (S.gradients e)).or grads) ((ups.getLast?.map Prod.fst).getD x) := by
  induction ups with
  | nil =>
    intro eb vals grads x h
    exact ⟨eb, rfl, by simpa [latest] using h⟩
  | cons up ups ih =>
    obtain ⟨xi, what⟩ := up
    intro eb vals grads x h
    obtain ⟨eb1, h1, h2⟩ := update_holds S hS e s u eb vals grads x xi what h
    obtain ⟨eb2, h3, h4⟩ := ih eb1 _ _ _ h2
    refine ⟨eb2, by rw [ElementBuffer.updates, h1, Option.bind_some, h3], ?_⟩
    have e1 : ((latest Update.hasValues ((xi, what) :: ups)).map (S.basis e)).getD vals =
        ((latest Update.hasValues ups).map (S.basis e)).getD (if what.hasValues = true then S.basis e xi else vals) := by
      rw [latest]
      cases latest Update.hasValues ups <;> split_ifs <;> simp
    have e2 : ((latest Update.hasGradients ((xi, what) :: ups)).map (S.gradients e)).or grads =
        ((latest Update.hasGradients ups).map (S.gradients e)).or (if what.hasGradients = true then some (S.gradients e xi) else grads) := by
      rw [latest]
      cases latest Update.hasGradients ups <;> split_ifs <;> simp
    have e3 : ((((xi, what) :: ups).getLast?).map Prod.fst).getD x = ((ups.getLast?).map Prod.fst).getD xi := by
      cases ups with
      | nil => rfl
      | cons a l => rw [List.getLast?_cons_cons]; cases hl : (a :: l).getLast? with
        | none => simp at hl
        | some y => rfl
    rw [e1, e2, e3]
    exact h4

private theorem fold_values (s : Nat) (ul : List K) (vals : List K) (k : Fin s) (acc : Fin s → K) (m : Nat) :
    ((vals.zipIdx m).foldl (fun acc bI => fun k => acc k + column s ul bI.2 k * bI.1) acc) k =
      acc k + ∑ I : Fin vals.length, vals[I] * ul.getD (s * (m + I) + k) 0 := by
  induction vals generalizing acc m with
  | nil => simp
  | cons v vals ih =>
    rw [List.zipIdx_cons, List.foldl_cons, ih]
    simp only [List.length_cons, Fin.sum_univ_succ, column]
    simp [add_assoc, add_comm 1, mul_comm v]

private theorem fold_gradients (s : Nat) (ul : List K) (gs : List (Point r K)) (i : Fin r) (k : Fin s) (acc : Matrix (Fin r) (Fin s) K) (m : Nat) :
    ((gs.zipIdx m).foldl (fun acc gI => acc + Matrix.vecMulVec gI.1 (column s ul gI.2)) acc) i k =
      acc i k + ∑ I : Fin gs.length, gs[I] i * ul.getD (s * (m + I) + k) 0 := by
  induction gs generalizing acc m with
  | nil => simp
  | cons v gs ih =>
    rw [List.zipIdx_cons, List.foldl_cons, ih]
    simp only [List.length_cons, Fin.sum_univ_succ, column, Matrix.add_apply, Matrix.vecMulVec_apply]
    simp only [Fin.getElem_fin, Fin.val_zero, Fin.val_succ, List.getElem_cons_succ, add_zero, add_assoc, add_comm 1]
    rfl

private theorem interpolate_holds (S : FeSpace r g K) (e s : Nat) (u : List K) (eb : ElementBuffer r K) (vals : List K)
    (grads : Option (List (Point r K))) (x : Point r K) (h : Holds S e s u eb vals grads x) :
    eb.interpolate s = some (weighted s u (S.nodes e) fun I => vals.getD I 0) := by
  rw [ElementBuffer.interpolate, computeInterpolation, h.values, if_pos (by rw [h.uLength, h.valuesLength])]
  congr 1
  funext k
  rw [fold_values]
  simp only [zero_add, Fin.getElem_fin, weighted]
  rw [← (finCongr h.valuesLength).sum_comp]
  refine Finset.sum_congr rfl fun I _ => ?_
  rw [h.uValue I (h.valuesLength ▸ I.2) k k.2]
  simp

private theorem gradient_holds (S : FeSpace r g K) (e s : Nat) (u : List K) (eb : ElementBuffer r K) (vals : List K)
    (gs : List (Point r K)) (x : Point r K) (h : Holds S e s u eb vals (some gs) x) :
    eb.refGradient s = some (weightedGradient s u (S.nodes e) fun I => gs.getD I 0) := by
  have hc := h.columns gs rfl
  have hl : gs.length = (S.nodes e).length := by
    have := h.columnsLength
    rwa [hc, List.length_map] at this
  have hg : eb.basis.gradients r = some gs := by
    rw [BasisBuffer.gradients, if_pos h.rows, hc, List.map_map]
    congr 1
    refine (List.map_congr_left fun a _ => ?_).trans (List.map_id gs)
    funext i
    simp [List.getD_eq_getElem?_getD]
  rw [ElementBuffer.refGradient, hg, Option.bind_some, computeInterpolationGradient, if_pos (by rw [h.uLength, hl])]
  congr 1
  funext i k
  rw [fold_gradients]
  simp only [Matrix.zero_apply, zero_add, weightedGradient]
  rw [← (finCongr hl).sum_comp]
  refine Finset.sum_congr rfl fun I _ => ?_
  rw [h.uValue I (hl ▸ I.2) k k.2]
  simp

/-- **C90.** Whatever a buffer holds and whatever updates follow: the interpolated value is the one at the point of the latest update that
includes the values, the gradient is the one at the point of the latest update that includes the gradients, and position and Jacobian are
those at the point of the last update. -/
theorem C90_reading (usizeMax : Nat) (S : FeSpace r g K) (hS : ConsistentFe S) (buf : InterpBuffer K) (e : Nat) (u : List K) (s : Nat)
    (hu : ∀ n ∈ S.nodes e, s * n + s ≤ u.length) (ups : List (Point r K × Update)) :
    ∃ eb eb', prepare usizeMax S buf e u s = some eb ∧ eb.updates S ups = some eb' ∧ eb'.basis.nodes = S.nodes e ∧
      (∀ xi, latest Update.hasValues ups = some xi → eb'.basis.values = S.basis e xi ∧
        eb'.interpolate s = some (weighted s u (S.nodes e) fun I => (S.basis e xi).getD I 0)) ∧
      (∀ xi, latest Update.hasGradients ups = some xi →
        eb'.refGradient s = some (weightedGradient s u (S.nodes e) fun I => (S.gradients e xi).getD I 0)) ∧
      ∀ xi what, ups.getLast? = some (xi, what) → eb'.mapReferenceCoords S = S.map e xi ∧ eb'.jacobian S = S.jacobian e xi := by
  obtain ⟨eb, h1, h2⟩ := prepare_holds usizeMax S buf e u s hu
  obtain ⟨eb', h3, h4⟩ := updates_holds S hS e s u ups eb _ _ _ h2
  refine ⟨eb, eb', h1, h3, h4.nodes, ?_, ?_, ?_⟩
  · intro xi hxi
    rw [hxi, Option.map_some, Option.getD_some] at h4
    exact ⟨h4.values, interpolate_holds S e s u eb' _ _ _ h4⟩
  · intro xi hxi
    rw [hxi, Option.map_some, Option.some_or] at h4
    exact gradient_holds S e s u eb' _ _ _ h4
  · intro xi what hlast
    rw [hlast, Option.map_some, Option.getD_some] at h4
    exact ⟨by rw [ElementBuffer.mapReferenceCoords, h4.element, h4.point], by rw [ElementBuffer.jacobian, h4.element, h4.point]⟩

/-- C90: in particular, after an update of both, everything belongs to the same point: what the buffer held before does not matter. -/
theorem C90_after_both (usizeMax : Nat) (S : FeSpace r g K) (hS : ConsistentFe S) (buf : InterpBuffer K) (e : Nat) (u : List K) (s : Nat)
    (hu : ∀ n ∈ S.nodes e, s * n + s ≤ u.length) (ups : List (Point r K × Update)) (xi : Point r K) :
    ∃ eb eb', prepare usizeMax S buf e u s = some eb ∧ eb.updates S (ups ++ [(xi, .both)]) = some eb' ∧
      eb'.interpolate s = some (weighted s u (S.nodes e) fun I => (S.basis e xi).getD I 0) ∧
      eb'.refGradient s = some (weightedGradient s u (S.nodes e) fun I => (S.gradients e xi).getD I 0) ∧
      eb'.mapReferenceCoords S = S.map e xi ∧ eb'.jacobian S = S.jacobian e xi := by
  obtain ⟨eb, eb', h1, h2, -, h4, h5, h6⟩ := C90_reading usizeMax S hS buf e u s hu (ups ++ [(xi, .both)])
  have hl : ∀ f : Update → Bool, f .both = true → latest f (ups ++ [(xi, .both)]) = some xi := by
    intro f hf
    clear h2 h4 h5 h6
    induction ups with
    | nil => simp [latest, hf]
    | cons a l ih =>
      rw [List.cons_append, latest, ih]
      rfl
  exact ⟨eb, eb', h1, h2, (h4 xi (hl _ rfl)).2, h5 xi (hl _ rfl), h6 xi .both (by simp)⟩

/-! ### What is left over -/

/-- C90 (finding): as long as no update includes the values, `interpolate` combines the values of the new element's nodes with the basis
values that the previous user of the buffer left there (zero for the nodes beyond those). -/
theorem C90_left_over (usizeMax : Nat) (S : FeSpace r g K) (hS : ConsistentFe S) (buf : InterpBuffer K) (e : Nat) (u : List K) (s : Nat)
    (hu : ∀ n ∈ S.nodes e, s * n + s ≤ u.length) (ups : List (Point r K × Update)) (hups : latest Update.hasValues ups = none) :
    ∃ eb eb', prepare usizeMax S buf e u s = some eb ∧ eb.updates S ups = some eb' ∧
      eb'.interpolate s = some (weighted s u (S.nodes e) fun I => buf.basis.values.getD I 0) := by
  obtain ⟨eb, h1, h2⟩ := prepare_holds usizeMax S buf e u s hu
  obtain ⟨eb', h3, h4⟩ := updates_holds S hS e s u ups eb _ _ _ h2
  refine ⟨eb, eb', h1, h3, ?_⟩
  rw [interpolate_holds S e s u eb' _ _ _ h4, hups]
  congr 1
  funext k
  refine Finset.sum_congr rfl fun I _ => ?_
  simp only [Option.map_none, Option.getD_none]
  rw [resizeList_getD _ _ _ _ I.2]

/-- The bilinear element on the reference square and beside it. -/
def squares : FeSpace 2 2 ℚ where
  nodes e := [e, e + 1, e + 2, e + 3]
  basis _ := Element.quad4Basis
  gradients _ := Element.quad4Gradients
  jacobian _ _ := 1
  map e xi := fun i => xi i + 2 * e

/-- C90 (finding): before the first update the position is the image of the origin, but the value is not the one there: with a new buffer the
constant function one has the value zero, and with a buffer that was used for a segment another function has the value 3 instead of 5. -/
theorem C90_stale_values :
    ConsistentFe squares ∧
    ((prepare 0 squares .empty 0 [1, 1, 1, 1] 1).map fun eb => (eb.mapReferenceCoords squares, (eb.interpolate 1).map (· 0))) =
      some (squares.map 0 0, some 0) ∧
    ((prepare 0 squares ⟨⟨[0, 1], [1 / 2, 1 / 2], 1, []⟩, []⟩ 0 [2, 4, 7, 7] 1).map fun eb => (eb.interpolate 1).map (· 0)) = some (some 3) ∧
    weighted 1 [2, 4, 7, 7] (squares.nodes 0) (fun I => (squares.basis 0 0).getD I 0) 0 = 5 := by
  refine ⟨fun _ _ => ⟨rfl, rfl⟩, ?_, ?_, ?_⟩ <;> decide +kernel

/-- C90 (finding): an update of the values moves the position and the Jacobian, but the gradient stays that of the earlier point. -/
theorem C90_mixed_points :
    ((prepare 0 squares .empty 0 [0, 0, 1, 0] 1).bind fun eb =>
      (eb.updates squares [(![0, 0], .both), (![1, 1], .values)]).map fun eb' =>
        ((eb'.interpolate 1).map (· 0), eb'.mapReferenceCoords squares, (eb'.refGradient 1).map fun G => (G 0 0, G 1 0))) =
      some (some 1, ![1, 1], some (1 / 4, 1 / 4)) ∧
    ((prepare 0 squares .empty 0 [0, 0, 1, 0] 1).bind fun eb =>
      (eb.updates squares [(![0, 0], .both), (![1, 1], .both)]).map fun eb' =>
        ((eb'.interpolate 1).map (· 0), eb'.mapReferenceCoords squares, (eb'.refGradient 1).map fun G => (G 0 0, G 1 0))) =
      some (some 1, ![1, 1], some (1 / 2, 1 / 2)) := by
  constructor <;> decide +kernel

/-! ### The loops over the points -/

private theorem prepare_eq (usizeMax : Nat) (S : FeSpace r g K) (buf : InterpBuffer K) (e : Nat) (u : List K) (s : Nat) :
    prepare usizeMax S buf e u s = (Assembly.gather s u (S.nodes e)).map fun ul =>
      ⟨{ (buf.basis.resize usizeMax (S.nodes e).length r) with nodes := S.nodes e }, ul, fun _ => 0, e⟩ := by
  have hf : fillSlice (resizeList (S.nodes e).length usizeMax buf.basis.nodes) (S.nodes e) = some (S.nodes e) := by
    rw [fillSlice, if_pos (resizeList_length _ _ _)]
  have hg : gatherInto s u (resizeList (s * (S.nodes e).length) 0 buf.uLocal) (S.nodes e) = Assembly.gather s u (S.nodes e) := by
    rw [gatherInto, if_pos (by rw [resizeList_length, Nat.mul_comm])]
  simp only [prepare, BasisBuffer.populateNodes, BasisBuffer.resize, hf, Option.map_some, Option.bind_some, hg]

private theorem columns_id (gs : List (Point g K)) : ((gs.map List.ofFn).map fun c => fun i : Fin g => c.getD i 0) = gs := by
  rw [List.map_map]
  refine (List.map_congr_left fun a _ => ?_).trans (List.map_id gs)
  funext i
  simp [List.getD_eq_getElem?_getD]

/-- **C90.** Interpolation at many points with one buffer gives the same as interpolation at each point on its own, whatever the buffer
held at the start: also if some point fails. -/
theorem C90_interpolate_at_points (usizeMax : Nat) (S : InterpSpace g K) (hS : Fenris.Spec.ConsistentSpace S) (s : Nat) (u : List K)
    (ps : List (Point g K)) (buf : InterpBuffer K) :
    (interpolateLoop usizeMax S s u buf ps).map Prod.fst = interpolateAtPoints S s u ps := by
  induction ps generalizing buf with
  | nil => rfl
  | cons p ps ih =>
    have hrest : ∀ (b : InterpBuffer K) (v : Fin s → K), ((interpolateLoop usizeMax S s u b ps).map fun x => (v :: x.1, x.2)).map Prod.fst =
        (interpolateAtPoints S s u ps).map (v :: ·) := by
      intro b v
      rw [← ih b, Option.map_map, Option.map_map]
      rfl
    have hpts : interpolateAtPoints S s u (p :: ps) = (interpolateAt S s u p).bind fun v => (interpolateAtPoints S s u ps).map (v :: ·) := by
      rw [interpolateAtPoints, List.mapM_cons]
      cases interpolateAt S s u p with
      | none => rfl
      | some v => simp only [Option.bind_eq_bind, Option.bind_some, interpolateAtPoints]; cases List.mapM (interpolateAt S s u) ps <;> rfl
    rw [hpts]
    unfold interpolateLoop interpolateAt
    cases hfind : S.find p with
    | none => exact hrest _ _
    | some ex =>
      obtain ⟨e, xi⟩ := ex
      simp only
      rw [prepare_eq]
      change Option.map Prod.fst (((Assembly.gather s u (S.nodes e)).map _).bind _) = _
      cases Assembly.gather s u (S.nodes e) with
      | none => rfl
      | some ul =>
        have hv : ∀ b : BasisBuffer K, b.values.length = (S.nodes e).length → fillSlice b.values (S.basis e xi) = some (S.basis e xi) := by
          intro b hb
          rw [fillSlice, if_pos (by rw [hb, (hS e xi).1])]
        rw [Option.map_some, Option.bind_some, Option.bind_some]
        simp only [ElementBuffer.update, Update.hasValues, Update.hasGradients, if_true, BasisBuffer.populateValues, ofInterp,
          Bool.false_eq_true, if_false, BasisBuffer.resize]
        rw [fillSlice, if_pos (by rw [resizeList_length, (hS e xi).1])]
        simp only [Option.map_some, Option.bind_some, ElementBuffer.interpolate]
        cases computeInterpolation s ul (S.basis e xi) with
        | none => rfl
        | some v => exact hrest _ _

/-- **C90.** The same for the gradients. -/
theorem C90_gradient_at_points (usizeMax : Nat) (S : InterpSpace g K) (hS : Fenris.Spec.ConsistentSpace S) (s : Nat) (u : List K)
    (ps : List (Point g K)) (buf : InterpBuffer K) :
    (gradientLoop usizeMax S s u buf ps).map Prod.fst = gradientAtPoints S s u ps := by
  induction ps generalizing buf with
  | nil => rfl
  | cons p ps ih =>
    have hrest : ∀ (b : InterpBuffer K) (v : Matrix (Fin g) (Fin s) K),
        ((gradientLoop usizeMax S s u b ps).map fun x => (v :: x.1, x.2)).map Prod.fst = (gradientAtPoints S s u ps).map (v :: ·) := by
      intro b v
      rw [← ih b, Option.map_map, Option.map_map]
      rfl
    have hpts : gradientAtPoints S s u (p :: ps) = (gradientAt S s u p).bind fun v => (gradientAtPoints S s u ps).map (v :: ·) := by
      rw [gradientAtPoints, List.mapM_cons]
      cases gradientAt S s u p with
      | none => rfl
      | some v => simp only [Option.bind_eq_bind, Option.bind_some, gradientAtPoints]; cases List.mapM (gradientAt S s u) ps <;> rfl
    rw [hpts]
    unfold gradientLoop gradientAt
    cases hfind : S.find p with
    | none => exact hrest _ _
    | some ex =>
      obtain ⟨e, xi⟩ := ex
      simp only
      rw [prepare_eq]
      change Option.map Prod.fst (((Assembly.gather s u (S.nodes e)).map _).bind _) = _
      cases Assembly.gather s u (S.nodes e) with
      | none => rfl
      | some ul =>
        rw [Option.map_some, Option.bind_some, Option.bind_some]
        simp only [ElementBuffer.update, Update.hasValues, Update.hasGradients, if_true, BasisBuffer.populateGradients, ofInterp,
          Bool.false_eq_true, if_false, BasisBuffer.resize, Option.bind_some]
        rw [fillSlice, if_pos (by rw [resizeList_length, List.length_map, (hS e xi).2])]
        simp only [Option.map_some, Option.bind_some, ElementBuffer.refGradient, BasisBuffer.gradients, if_true, columns_id,
          ElementBuffer.jacobian]
        cases computeInterpolationGradient s ul (S.gradients e xi) with
        | none => rfl
        | some ref =>
          rw [Option.bind_some, Option.bind_some]
          cases tryInverse (S.jacobian e xi) with
          | none => rfl
          | some inv => exact hrest _ _

/-! ### Concrete cases -/

/-- Two linear segments `[0, 1]` and `[1, 2]`. -/
private def segments : InterpSpace 1 ℚ where
  find p := if p 0 ≤ 1 then some (0, fun _ => 2 * p 0 - 1) else some (1, fun _ => 2 * p 0 - 3)
  nodes e := [e, e + 1]
  basis _ xi := [(1 - xi 0) / 2, (1 + xi 0) / 2]
  gradients _ _ := [fun _ => -1 / 2, fun _ => 1 / 2]
  jacobian _ _ := fun _ _ => 1 / 2

example : Fenris.Spec.ConsistentSpace segments := fun _ _ => ⟨rfl, rfl⟩

/-- A buffer that was used for an element with more nodes. -/
example : ((interpolateLoop 0 segments 1 [0, 4, 10] ⟨⟨[7, 8, 9], [5, 5, 5], 2, [[1, 1], [1, 1], [1, 1]]⟩, [1, 2, 3]⟩
    [fun _ => 1 / 4, fun _ => 3 / 2]).map fun x => x.1.map (· 0)) = some [1, 7] := by
  decide +kernel

example : ((gradientLoop 0 segments 1 [0, 4, 10] .empty [fun _ => 1 / 4, fun _ => 3 / 2]).map fun x => x.1.map fun m => m 0 0) = some [4, 6] := by
  decide +kernel

/-- The hypothesis on the nodes. -/
example : ∀ n ∈ squares.nodes 1, 2 * n + 2 ≤ (List.replicate 10 (0 : ℚ)).length := by decide

end Fenris.Buffers
