import Verif.Model.TetGrid
import Verif.Lemmas.Procedural
import Verif.Spec.TetGrid
import Mathlib.Tactic.FinCases
import Mathlib.Data.Fintype.Pi
import Mathlib.Data.List.GetD
import Mathlib.Data.Fintype.Basic
import Mathlib.Tactic.FieldSimp
import Mathlib.Tactic.LinearCombination
/-! # Nodes, groups of tetrahedra and their geometry -/
set_option autoImplicit false

namespace Fenris
namespace TetGrid
open Spec

/-! ### Nodes -/

/-- A vertex of the grid or the centre of a cell. -/
inductive Node where
  | vert (q : Idx)
  | center (q : Idx)
  deriving DecidableEq

def Node.Valid (n : Idx) : Node → Prop
  | .vert q => ∀ a, q a ≤ n a
  | .center q => ∀ a, q a < n a

def nodeIdx (n : Idx) : Node → Nat
  | .vert q => vertexIdx n q
  | .center q => centerIdx n q

def nodePos {K : Type} [Field K] (h : K) : Node → Point 3 K
  | .vert q => fun a => h * (q a : K)
  | .center q => fun a => h * (1 / 2 + (q a : K))

/-- The kinds of groups of tetrahedra. -/
inductive Kind where
  | conn | neg | pos
  deriving DecidableEq

abbrev Key := Idx × Fin 3 × Kind

def connN (cell : Idx) (axis : Fin 3) : List (List Node) :=
  let face := (faceDeltas axis).map fun delta => Node.vert fun a => cell a + delta a
  let c1 := Node.center cell
  let c2 := Node.center fun a => cell a + axisDelta axis a
  let around := face ++ face.take 1
  (around.zip around.tail).map fun e => [c1, c2, e.2, e.1]

def pyrN (cell : Idx) (axis : Fin 3) (positive : Bool) : List (List Node) :=
  let face := (faceVertices cell axis positive).map Node.vert
  let a := face.getD 0 (.vert 0)
  let b := face.getD 1 (.vert 0)
  let c := face.getD 2 (.vert 0)
  let d := face.getD 3 (.vert 0)
  let center := Node.center cell
  if (cell 0 + cell 1 + cell 2) % 2 = 0 then [[a, b, c, center], [a, c, d, center]]
  else [[a, b, d, center], [b, c, d, center]]

def groupN : Key → List (List Node)
  | (cell, axis, .conn) => connN cell axis
  | (cell, axis, .neg) => pyrN cell axis false
  | (cell, axis, .pos) => pyrN cell axis true

/-- The groups that are present in a grid with `n` cells. -/
def KeyValid (n : Idx) : Key → Prop
  | (cell, axis, .conn) => (∀ a, cell a < n a) ∧ cell axis + 1 < n axis
  | (cell, axis, .neg) => (∀ a, cell a < n a) ∧ cell axis = 0
  | (cell, axis, .pos) => (∀ a, cell a < n a) ∧ cell axis + 1 = n axis

def cellKeys (n cell : Idx) : List Key :=
  ([0, 1, 2] : List (Fin 3)).flatMap fun axis =>
    (if cell axis + 1 < n axis then [(cell, axis, .conn)] else []) ++
    (if cell axis = 0 then [(cell, axis, .neg)] else []) ++
    if cell axis + 1 = n axis then [(cell, axis, .pos)] else []

def keys (n : Idx) : List Key := (lattice n).flatMap (cellKeys n)

theorem mem_lattice (n q : Idx) : q ∈ lattice n ↔ ∀ a, q a < n a := by
  simp only [lattice, List.mem_flatMap, List.mem_map, List.mem_range]
  constructor
  · rintro ⟨k, hk, j, hj, i, hi, rfl⟩ a
    fin_cases a
    · exact hi
    · exact hj
    · exact hk
  · intro h
    refine ⟨q 2, h 2, q 1, h 1, q 0, h 0, ?_⟩
    funext a
    fin_cases a <;> rfl

theorem nodup_lattice (n : Idx) : (lattice n).Nodup := by
  rw [lattice, List.nodup_flatMap]
  refine ⟨fun k _ => ?_, ?_⟩
  · rw [List.nodup_flatMap]
    refine ⟨fun j _ => ?_, ?_⟩
    · refine List.Nodup.map (fun i i' h => ?_) List.nodup_range
      exact congrFun h 0
    · refine List.Nodup.pairwise_of_forall_ne List.nodup_range fun j _ j' _ hne => ?_
      intro q h1 h2
      obtain ⟨i, -, rfl⟩ := List.mem_map.mp h1
      obtain ⟨i', -, h⟩ := List.mem_map.mp h2
      exact hne (congrFun h 1).symm
  · refine List.Nodup.pairwise_of_forall_ne List.nodup_range fun k _ k' _ hne => ?_
    intro q h1 h2
    obtain ⟨j, -, h1⟩ := List.mem_flatMap.mp h1
    obtain ⟨j', -, h2⟩ := List.mem_flatMap.mp h2
    obtain ⟨i, -, rfl⟩ := List.mem_map.mp h1
    obtain ⟨i', -, h⟩ := List.mem_map.mp h2
    exact hne (congrFun h 2).symm

theorem mem_cellKeys (n cell : Idx) (hc : ∀ a, cell a < n a) (κ : Key) : κ ∈ cellKeys n cell ↔ κ.1 = cell ∧ KeyValid n κ := by
  obtain ⟨c, axis, kind⟩ := κ
  simp only [cellKeys, List.mem_flatMap, List.mem_append]
  constructor
  · rintro ⟨b, -, (h | h) | h⟩
    all_goals
      split at h
      case isFalse => simp at h
      case isTrue hif =>
        simp only [List.mem_singleton, Prod.mk.injEq] at h
        obtain ⟨rfl, rfl, rfl⟩ := h
        exact ⟨rfl, hc, hif⟩
  · rintro ⟨rfl, hv⟩
    refine ⟨axis, by fin_cases axis <;> simp, ?_⟩
    cases kind with
    | conn => rw [if_pos hv.2]; simp
    | neg => rw [if_pos (show c axis = 0 from hv.2)]; simp
    | pos => rw [if_pos (show c axis + 1 = n axis from hv.2)]; simp

theorem mem_keys (n : Idx) (κ : Key) : κ ∈ keys n ↔ KeyValid n κ := by
  simp only [keys, List.mem_flatMap]
  constructor
  · rintro ⟨cell, hc, h⟩
    exact ((mem_cellKeys n cell ((mem_lattice n cell).mp hc) κ).mp h).2
  · intro h
    have hc : ∀ a, κ.1 a < n a := by
      obtain ⟨c, axis, kind⟩ := κ
      cases kind <;> exact h.1
    exact ⟨κ.1, (mem_lattice n _).mpr hc, (mem_cellKeys n _ hc κ).mpr ⟨rfl, h⟩⟩

theorem nodup_cellKeys (n cell : Idx) : (cellKeys n cell).Nodup := by
  rw [cellKeys, List.nodup_flatMap]
  refine ⟨fun axis _ => ?_, ?_⟩
  · split_ifs <;> simp
  · refine List.Nodup.pairwise_of_forall_ne (by decide) fun a _ b _ hne => ?_
    intro κ h1 h2
    have key : ∀ a, κ ∈ (if cell a + 1 < n a then [((cell, a, .conn) : Key)] else []) ++
        (if cell a = 0 then [(cell, a, .neg)] else []) ++ (if cell a + 1 = n a then [(cell, a, .pos)] else []) → κ.2.1 = a := by
      intro a h
      split_ifs at h <;> simp at h <;> first | (rcases h with rfl | rfl | rfl <;> rfl) | (rcases h with rfl | rfl <;> rfl) |
        (rw [h])
    exact hne ((key a h1).symm.trans (key b h2))

theorem nodup_keys (n : Idx) : (keys n).Nodup := by
  rw [keys, List.nodup_flatMap]
  refine ⟨fun cell _ => nodup_cellKeys n cell, ?_⟩
  refine List.Nodup.pairwise_of_forall_ne (nodup_lattice n) fun a ha b hb hne => ?_
  intro κ h1 h2
  exact hne (((mem_cellKeys n a ((mem_lattice n a).mp ha) κ).mp h1).1.symm.trans
    ((mem_cellKeys n b ((mem_lattice n b).mp hb) κ).mp h2).1)

theorem connectCenters_eq (n cell : Idx) (axis : Fin 3) :
    connectCenters n cell axis = (connN cell axis).map (List.map (nodeIdx n)) := by
  fin_cases axis <;> rfl

theorem makePyramid_eq (n cell : Idx) (axis : Fin 3) (b : Bool) :
    makePyramid n cell axis b = (pyrN cell axis b).map (List.map (nodeIdx n)) := by
  simp only [makePyramid, pyrN]
  split <;> fin_cases axis <;> cases b <;> rfl

theorem cells_eq (n : Idx) : (lattice n).flatMap (cellTets n) = ((keys n).flatMap groupN).map (List.map (nodeIdx n)) := by
  rw [keys, List.flatMap_assoc, List.map_flatMap]
  congr 1
  funext cell
  rw [cellTets, cellKeys, List.flatMap_assoc, List.map_flatMap]
  congr 1
  funext axis
  simp only [List.flatMap_append, List.map_append]
  congr 1
  · congr 1
    · split
      · simp [groupN, connectCenters_eq]
      · rfl
    · split
      · simp [groupN, makePyramid_eq]
      · rfl
  · split
    · simp [groupN, makePyramid_eq]
    · rfl

/-! ### Numbers of nodes -/

theorem length_lattice (n : Idx) : (lattice n).length = n 0 * n 1 * n 2 :=
  length_flatMap_range _ (fun _ _ => length_flatMap_range _ (by simp))

theorem getElem?_lattice (n q : Idx) (hq : ∀ a, q a < n a) : (lattice n)[n 0 * n 1 * q 2 + n 0 * q 1 + q 0]? = some q := by
  rw [lattice, Nat.add_assoc, getElem?_flatMap_range (n := n 0 * n 1) _
      (fun _ _ => length_flatMap_range _ (by simp)) (mul_add_lt (hq 0) (hq 1)) (hq 2),
    getElem?_flatMap_range (n := n 0) _ (by simp) (hq 0) (hq 1), List.getElem?_map, List.getElem?_range (hq 0)]
  simp only [Option.map_some, Option.some.injEq]
  funext a
  fin_cases a <;> rfl

theorem vertexIdx_lt (n q : Idx) (hq : ∀ a, q a ≤ n a) : vertexIdx n q < centerOffset n := by
  rw [vertexIdx, centerOffset, Nat.add_assoc]
  exact mul_add_lt (mul_add_lt (by have := hq 0; omega) (by have := hq 1; omega)) (by have := hq 2; omega)

theorem nodeIdx_inj (n : Idx) (x y : Node) (hx : x.Valid n) (hy : y.Valid n) (h : nodeIdx n x = nodeIdx n y) : x = y := by
  cases x with
  | vert q =>
    cases y with
    | vert q' =>
      have h1 := getElem?_lattice (fun a => n a + 1) q fun a => by have := hx a; omega
      have h2 := getElem?_lattice (fun a => n a + 1) q' fun a => by have := hy a; omega
      simp only [nodeIdx, vertexIdx] at h
      rw [h, h2, Option.some.injEq] at h1
      rw [h1]
    | center q' =>
      have h1 := vertexIdx_lt n q hx
      simp only [nodeIdx, centerIdx] at h
      omega
  | center q =>
    cases y with
    | vert q' =>
      have h1 := vertexIdx_lt n q' hy
      simp only [nodeIdx, centerIdx] at h
      omega
    | center q' =>
      have h1 := getElem?_lattice n q hx
      have h2 := getElem?_lattice n q' hy
      simp only [nodeIdx, centerIdx] at h
      have h : n 0 * n 1 * q 2 + n 0 * q 1 + q 0 = n 0 * n 1 * q' 2 + n 0 * q' 1 + q' 0 := by omega
      rw [h, h2, Option.some.injEq] at h1
      rw [h1]

variable {K : Type} [Field K]

/-- The vertices of the mesh. -/
def verts (n : Idx) (h : K) : List (Point 3 K) :=
  ((lattice fun a => n a + 1).map fun q => (fun a => h * (q a : K) : Point 3 K)) ++
    (lattice n).map fun q => (fun a => h * (1 / 2 + (q a : K)) : Point 3 K)

theorem verts_node (n : Idx) (h : K) (x : Node) (hx : x.Valid n) : (verts n h)[nodeIdx n x]? = some (nodePos h x) := by
  cases x with
  | vert q =>
    have h1 := getElem?_lattice (fun a => n a + 1) q fun a => by have := hx a; omega
    have h2 := vertexIdx_lt n q hx
    simp only [nodeIdx, verts]
    rw [List.getElem?_append_left (by rw [List.length_map, length_lattice]; exact h2), List.getElem?_map]
    rw [vertexIdx, h1]
    rfl
  | center q =>
    have h1 := getElem?_lattice n q hx
    simp only [nodeIdx, verts]
    rw [List.getElem?_append_right (by rw [List.length_map, length_lattice, centerIdx, centerOffset]; omega), List.length_map,
      length_lattice, centerIdx, centerOffset, Nat.add_sub_cancel, List.getElem?_map, h1]
    rfl

theorem verts_length (n : Idx) (h : K) : (verts n h).length = (n 0 + 1) * (n 1 + 1) * (n 2 + 1) + n 0 * n 1 * n 2 := by
  rw [verts, List.length_append, List.length_map, List.length_map, length_lattice, length_lattice]

theorem verts_all (n : Idx) (h : K) (v : Nat) (hv : v < (verts n h).length) : ∃ x : Node, x.Valid n ∧ nodeIdx n x = v := by
  rw [verts_length] at hv
  have key : ∀ (m : Idx) (w : Nat), w < m 0 * m 1 * m 2 → ∃ q : Idx, (∀ a, q a < m a) ∧ m 0 * m 1 * q 2 + m 0 * q 1 + q 0 = w := by
    intro m w hw
    obtain ⟨r, k, hr, hk, rfl⟩ := mul_add_decomp hw
    obtain ⟨i, j, hi, hj, rfl⟩ := mul_add_decomp hr
    refine ⟨![i, j, k], fun a => ?_, ?_⟩
    · fin_cases a
      · exact hi
      · exact hj
      · exact hk
    · show m 0 * m 1 * k + m 0 * j + i = _
      omega
  by_cases h1 : v < centerOffset n
  · obtain ⟨q, hq, e⟩ := key (fun a => n a + 1) v h1
    exact ⟨.vert q, fun a => by have := hq a; omega, e⟩
  · rw [centerOffset] at h1
    obtain ⟨q, hq, e⟩ := key n (v - (n 0 + 1) * (n 1 + 1) * (n 2 + 1)) (by omega)
    refine ⟨.center q, hq, ?_⟩
    show centerIdx n q = v
    rw [centerIdx, centerOffset]
    omega

/-! ### The nodes of the groups are nodes of the grid -/

theorem faceDeltas_le (axis : Fin 3) : ∀ δ ∈ faceDeltas axis, ∀ a, δ a ≤ 1 := by
  fin_cases axis <;> decide

theorem faceDeltas_axis (axis : Fin 3) : ∀ δ ∈ faceDeltas axis, δ axis = 1 := by
  fin_cases axis <;> decide

theorem connN_eq (cell : Idx) (axis : Fin 3) : connN cell axis =
    let v := fun i => Node.vert fun a => cell a + (faceDeltas axis).getD i 0 a
    let c1 := Node.center cell
    let c2 := Node.center fun a => cell a + axisDelta axis a
    [[c1, c2, v 1, v 0], [c1, c2, v 2, v 1], [c1, c2, v 3, v 2], [c1, c2, v 0, v 3]] := by
  fin_cases axis <;> rfl

theorem pyrN_eq (cell : Idx) (axis : Fin 3) (b : Bool) : pyrN cell axis b =
    let v := fun i => Node.vert ((faceVertices cell axis b).getD i 0)
    let c := Node.center cell
    if (cell 0 + cell 1 + cell 2) % 2 = 0 then [[v 0, v 1, v 2, c], [v 0, v 2, v 3, c]]
    else [[v 0, v 1, v 3, c], [v 1, v 2, v 3, c]] := by
  fin_cases axis <;> cases b <;> rfl

theorem faceVertices_le (n cell : Idx) (axis : Fin 3) (b : Bool) (hc : ∀ a, cell a < n a) (i : Nat) (hi : i < 4) :
    ∀ a, (faceVertices cell axis b).getD i 0 a ≤ n a := by
  have h0 := hc 0
  have h1 := hc 1
  have h2 := hc 2
  intro a
  have : i = 0 ∨ i = 1 ∨ i = 2 ∨ i = 3 := by omega
  rcases this with rfl | rfl | rfl | rfl <;> fin_cases axis <;> cases b <;> fin_cases a <;>
    simp [faceVertices, faceDeltas] <;> omega

theorem group_valid (n : Idx) (κ : Key) (hκ : KeyValid n κ) : ∀ t ∈ groupN κ, t.length = 4 ∧ ∀ x ∈ t, x.Valid n := by
  obtain ⟨cell, axis, kind⟩ := κ
  have pyr : ∀ b, (∀ a, cell a < n a) → ∀ t ∈ pyrN cell axis b, t.length = 4 ∧ ∀ x ∈ t, x.Valid n := by
    intro b hc t ht
    have hv := faceVertices_le n cell axis b hc
    rw [pyrN_eq] at ht
    simp only at ht
    split at ht <;> simp only [List.mem_cons, List.not_mem_nil, or_false] at ht <;> rcases ht with rfl | rfl <;>
      refine ⟨rfl, fun x hx => ?_⟩ <;> simp only [List.mem_cons, List.not_mem_nil, or_false] at hx <;>
      rcases hx with rfl | rfl | rfl | rfl <;> first | exact hc | exact hv _ (by omega)
  cases kind with
  | conn =>
    obtain ⟨hc, ha⟩ := hκ
    have hv : ∀ i, i < 4 → Node.Valid n (.vert fun a => cell a + (faceDeltas axis).getD i 0 a) := by
      intro i hi a
      have h1 := hc a
      have h2 : (faceDeltas axis).getD i 0 a ≤ 1 := by
        refine faceDeltas_le axis _ ?_ a
        rw [List.getD_eq_getElem _ _ (by fin_cases axis <;> exact hi)]
        exact List.getElem_mem _
      show cell a + (faceDeltas axis).getD i 0 a ≤ n a
      omega
    have h2 : Node.Valid n (.center fun a => cell a + axisDelta axis a) := by
      intro a
      have := hc a
      simp only [axisDelta]
      split
      · next h => rw [h]; exact ha
      · omega
    intro t ht
    rw [groupN, connN_eq] at ht
    simp only [List.mem_cons, List.not_mem_nil, or_false] at ht
    rcases ht with rfl | rfl | rfl | rfl <;> refine ⟨rfl, fun x hx => ?_⟩ <;>
      simp only [List.mem_cons, List.not_mem_nil, or_false] at hx <;> rcases hx with rfl | rfl | rfl | rfl <;>
      first | exact hc | exact h2 | exact hv _ (by omega)
  | neg => exact pyr false hκ.1
  | pos => exact pyr true hκ.1

end TetGrid
end Fenris
