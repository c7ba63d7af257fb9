import Verif.Model.Dump
import Verif.Spec.Dump
import Verif.Spec.PatchTest
import Verif.Props.Pattern
/-! # C91: vectors of nodal values and matrix files -/
set_option autoImplicit false

namespace Fenris.Dump
open Fenris.Assembly Fenris.Dump.Spec
variable {K : Type}

/-! ### Vectors -/

private theorem loop_eq {P : Type} (s : Nat) (f : Nat → P → Fin s → K) (ps : List P) :
    ∀ (i : Nat) (acc : List K), globalVectorLoop s f i ps acc = acc ++ (ps.zipIdx i).flatMap fun x => List.ofFn (f x.2 x.1) := by
  induction ps with
  | nil => intro i acc; simp [globalVectorLoop]
  | cons p ps ih =>
    intro i acc
    rw [globalVectorLoop, ih]
    simp

private theorem flatMap_length {A : Type} (s : Nat) (g : A → List K) (hg : ∀ a, (g a).length = s) (l : List A) :
    (l.flatMap g).length = s * l.length := by
  induction l with
  | nil => simp
  | cons a l ih => rw [List.flatMap_cons, List.length_append, ih, hg, List.length_cons]; ring

private theorem flatMap_get {A : Type} (s : Nat) (g : A → List K) (hg : ∀ a, (g a).length = s) (l : List A) :
    ∀ (i : Nat) (a : A), l[i]? = some a → ∀ k, k < s → (l.flatMap g)[s * i + k]? = (g a)[k]? := by
  induction l with
  | nil => simp
  | cons b l ih =>
    intro i a hi k hk
    cases i with
    | zero =>
      obtain rfl : b = a := by simpa using hi
      rw [List.flatMap_cons, List.getElem?_append_left (by rw [hg]; omega), Nat.mul_zero, Nat.zero_add]
    | succ i =>
      rw [List.flatMap_cons, List.getElem?_append_right (by rw [hg, Nat.mul_succ]; omega), hg, ← ih i a (by simpa using hi) k hk]
      congr 1
      rw [Nat.mul_succ]
      omega

/-- **C91.** The vector has the components of the function at the points, point after point; the function is called once for each point, in
order. -/
theorem C91_global_vector {P : Type} (s : Nat) (points : List P) (f : Nat → P → Fin s → K) :
    (globalVectorFromPointFn s points f).length = s * points.length ∧
    ∀ (n : Nat) (x : P), points[n]? = some x → ∀ k : Fin s, (globalVectorFromPointFn s points f)[s * n + k]? = some (f n x k) := by
  rw [globalVectorFromPointFn, loop_eq, List.nil_append]
  constructor
  · rw [flatMap_length s _ (by simp)]
    simp
  · intro n x hx k
    rw [flatMap_get s (fun x : P × Nat => List.ofFn (f x.2 x.1)) (by simp) _ n (x, n) (by simp [List.getElem?_zipIdx, hx]) k k.2]
    simp

/-- C91: the vector of an affine function consists of nodal values as the patch test (C89) wants them. -/
theorem C91_affine {K : Type} [Field K] {s d : Nat} (vertices : List (Point d K)) (G : Matrix (Fin d) (Fin s) K) (b : Fin s → K) :
    PatchTest.Spec.IsAffine vertices G b (globalVectorFromPointFn s vertices fun _ x i => ∑ k, G k i * x k + b i) :=
  ⟨(C91_global_vector s vertices _).1, fun n x hx i => (C91_global_vector s vertices _).2 n x hx i⟩

private theorem extractLoop_ok (s : Nat) (u : List K) (nodes : List Nat) (h : ∀ n ∈ nodes, s * n + s ≤ u.length) :
    ∀ (i : Nat) (out : List K), s * (i + nodes.length) ≤ out.length →
      extractLoop s u i nodes out = some (out.take (s * i) ++ nodes.flatMap (fun n => (u.drop (s * n)).take s) ++ out.drop (s * (i + nodes.length))) := by
  induction nodes with
  | nil => intro i out ho; simp [extractLoop]
  | cons n nodes ih =>
    intro i out ho
    have hn := h n (by simp)
    have hl : ((u.drop (s * n)).take s).length = s := by simp; omega
    have hi : s * (i + (nodes.length + 1)) = s * i + s + s * nodes.length := by ring
    rw [List.length_cons, hi] at ho
    have hw : writeRows out (s * i) ((u.drop (s * n)).take s) =
        some (out.take (s * i) ++ (u.drop (s * n)).take s ++ out.drop (s * i + s)) := by
      rw [writeRows, hl, if_pos (by omega)]
    have e1 : s * (i + 1) = s * i + s := by ring
    have e2 : s * (i + 1 + nodes.length) = s * i + s + s * nodes.length := by ring
    have hpre : (out.take (s * i) ++ (u.drop (s * n)).take s).length = s * i + s := by
      rw [List.length_append, hl, List.length_take]; omega
    rw [extractLoop, rowsGeneric, if_pos hn, Option.bind_some, hw, Option.bind_some,
      ih (fun m hm => h m (List.mem_cons_of_mem _ hm)) (i + 1) _ (by rw [List.length_append, hpre, List.length_drop, e2]; omega)]
    congr 1
    rw [List.flatMap_cons]
    generalize (u.drop (s * n)).take s = w at hl hw hpre
    rw [e1, e2, List.length_cons, hi, List.take_append_of_le_length (by omega), List.take_of_length_le (by omega), List.drop_append,
      List.drop_of_length_le (by omega), hpre, List.nil_append, List.drop_drop]
    simp only [List.append_assoc]
    congr 4
    omega

private theorem extractLoop_bad (s : Nat) (u : List K) (nodes : List Nat) (n : Nat) (hn : n ∈ nodes) (h : u.length < s * n + s) :
    ∀ (i : Nat) (out : List K), extractLoop s u i nodes out = none := by
  induction nodes with
  | nil => simp at hn
  | cons m nodes ih =>
    intro i out
    rw [extractLoop]
    rcases List.mem_cons.1 hn with rfl | hn
    · rw [rowsGeneric, if_neg (by omega)]; rfl
    · cases rowsGeneric u (s * m) s with
      | none => rfl
      | some ui =>
        rw [Option.bind_some]
        cases writeRows out (s * i) ui with
        | none => rfl
        | some out' => exact ih hn _ _

/-- **C91.** The extracted vector has the components of the listed nodes, node after node; there is a panic exactly when a node is out of range. -/
theorem C91_extract [Zero K] (s : Nat) (u : List K) (nodes : List Nat) :
    (extractByNodeIndex s u nodes = none ↔ ∃ n ∈ nodes, u.length < s * n + s) ∧
    ∀ out, extractByNodeIndex s u nodes = some out → out.length = s * nodes.length ∧
      ∀ (I n : Nat), nodes[I]? = some n → ∀ k, k < s → out[s * I + k]? = u[s * n + k]? := by
  by_cases hb : ∃ n ∈ nodes, u.length < s * n + s
  · obtain ⟨n, hn, hlt⟩ := hb
    have := extractLoop_bad s u nodes n hn hlt 0 (List.replicate (s * nodes.length) 0)
    rw [extractByNodeIndex, this]
    exact ⟨⟨fun _ => ⟨n, hn, hlt⟩, fun _ => rfl⟩, by simp⟩
  · have hok : ∀ n ∈ nodes, s * n + s ≤ u.length := by
      intro n hn
      by_contra hc
      exact hb ⟨n, hn, by omega⟩
    have h := extractLoop_ok s u nodes hok 0 (List.replicate (s * nodes.length) 0) (by simp)
    have h' : extractByNodeIndex s u nodes = some (nodes.flatMap fun n => (u.drop (s * n)).take s) := by
      rw [extractByNodeIndex, h]
      simp
    have hg : ∀ (l : List Nat), (∀ n ∈ l, s * n + s ≤ u.length) → (l.flatMap fun n => (u.drop (s * n)).take s).length = s * l.length ∧
        ∀ (I n : Nat), l[I]? = some n → ∀ k, k < s → (l.flatMap fun n => (u.drop (s * n)).take s)[s * I + k]? = u[s * n + k]? := by
      intro l hl
      induction l with
      | nil => simp
      | cons a l ih =>
        obtain ⟨i1, i2⟩ := ih fun n hn => hl n (List.mem_cons_of_mem _ hn)
        have ha := hl a (by simp)
        have hlen : ((u.drop (s * a)).take s).length = s := by simp; omega
        refine ⟨by rw [List.flatMap_cons, List.length_append, i1, hlen, List.length_cons]; ring, ?_⟩
        intro I n hI k hk
        cases I with
        | zero =>
          obtain rfl : a = n := by simpa using hI
          rw [List.flatMap_cons, List.getElem?_append_left (by omega), Nat.mul_zero, Nat.zero_add, List.getElem?_take, if_pos hk,
            List.getElem?_drop]
        | succ I =>
          rw [List.flatMap_cons, List.getElem?_append_right (by rw [hlen, Nat.mul_succ]; omega), hlen, ← i2 I n (by simpa using hI) k hk]
          congr 1
          rw [Nat.mul_succ]
          omega
    rw [h']
    refine ⟨⟨by simp, fun h => absurd h hb⟩, ?_⟩
    rintro out hout
    obtain rfl := Option.some.inj hout
    exact hg nodes hok

/-- C91: extracting nodes from the vector of a function gives the vector of the function at these nodes. -/
theorem C91_extract_of_function [Zero K] {P : Type} (s : Nat) (points : List P) (f : P → Fin s → K) (nodes : List Nat) (chosen : List P)
    (h : nodes.map (points[·]?) = chosen.map some) :
    extractByNodeIndex s (globalVectorFromPointFn s points fun _ => f) nodes = some (globalVectorFromPointFn s chosen fun _ => f) := by
  obtain ⟨h1, h2⟩ := C91_global_vector s points fun _ => f
  obtain ⟨h3, h4⟩ := C91_global_vector s chosen fun _ => f
  have hlen : nodes.length = chosen.length := by simpa using congrArg List.length h
  have hget : ∀ (I n : Nat), nodes[I]? = some n → ∃ x, points[n]? = some x ∧ chosen[I]? = some x := by
    intro I n hI
    have := congrArg (·[I]?) h
    simp only [List.getElem?_map, hI, Option.map_some] at this
    cases hc : chosen[I]? with
    | none => rw [hc] at this; simp at this
    | some x => rw [hc] at this; exact ⟨x, by simpa using this, rfl⟩
  obtain ⟨e1, e2⟩ := C91_extract s (globalVectorFromPointFn s points fun _ => f) nodes
  cases hx : extractByNodeIndex s (globalVectorFromPointFn s points fun _ => f) nodes with
  | none =>
    exfalso
    obtain ⟨n, hn, hlt⟩ := e1.1 hx
    obtain ⟨I, hI⟩ := List.getElem?_of_mem hn
    obtain ⟨x, hx, -⟩ := hget I n hI
    have hnl : n < points.length := (List.getElem?_eq_some_iff.1 hx).1
    rw [h1] at hlt
    have := Nat.mul_le_mul_left s hnl
    rw [Nat.mul_succ] at this
    omega
  | some out =>
    obtain ⟨o1, o2⟩ := e2 out hx
    congr 1
    apply List.ext_getElem?
    intro q
    by_cases hq : q < s * nodes.length
    · have hs : 0 < s := by
        rcases Nat.eq_zero_or_pos s with rfl | hs
        · simp at hq
        · exact hs
      have hI : q / s < nodes.length := Nat.div_lt_of_lt_mul hq
      have hk : q % s < s := Nat.mod_lt _ hs
      obtain ⟨x, p1, p2⟩ := hget (q / s) nodes[q / s] (List.getElem?_eq_getElem hI)
      have := o2 (q / s) nodes[q / s] (List.getElem?_eq_getElem hI) (q % s) hk
      rw [Nat.div_add_mod] at this
      rw [this, h2 _ x p1 ⟨q % s, hk⟩]
      have := h4 _ x p2 ⟨q % s, hk⟩
      rw [Nat.div_add_mod] at this
      exact this.symm
    · have hm : s * nodes.length = s * chosen.length := by rw [hlen]
      rw [List.getElem?_eq_none (by omega), List.getElem?_eq_none (by rw [h3]; omega)]

/-! ### Texts -/

private theorem split_ne_nil (sep : Char) (w : List Char) : split sep w ≠ [] := by
  cases w with
  | nil => simp [split]
  | cons c w => rw [split]; split_ifs <;> simp

private theorem split_clean (sep : Char) (w : List Char) (h : sep ∉ w) : split sep w = [w] := by
  induction w with
  | nil => rfl
  | cons c w ih =>
    rw [List.mem_cons, not_or] at h
    rw [split, if_neg (Ne.symm h.1), ih h.2]
    rfl

private theorem split_sep (sep : Char) (w rest : List Char) (h : sep ∉ w) : split sep (w ++ sep :: rest) = w :: split sep rest := by
  induction w with
  | nil => simp [split]
  | cons c w ih =>
    rw [List.mem_cons, not_or] at h
    rw [List.cons_append, split, if_neg (Ne.symm h.1), ih h.2]
    rfl

private theorem split_lines (ls : List (List Char)) (h : ∀ l ∈ ls, '\n' ∉ l) : split '\n' (ls.flatMap (· ++ ['\n'])) = ls ++ [[]] := by
  induction ls with
  | nil => rfl
  | cons l ls ih =>
    rw [List.flatMap_cons, List.append_assoc, List.singleton_append, split_sep _ _ _ (h l (by simp)), ih fun l hl => h l (List.mem_cons_of_mem _ hl)]
    rfl

private theorem linesOf_eq (ls : List (List Char)) (h : ∀ l ∈ ls, '\n' ∉ l) : linesOf (ls.flatMap (· ++ ['\n'])) = some ls := by
  rw [linesOf, split_lines ls h, if_pos (by simp), List.dropLast_concat]

private theorem natText_digit (n : Nat) (c : Char) (h : c ∈ natText n) : c.isDigit = true := Nat.isDigit_of_mem_toDigits (by decide) (by decide) h

private theorem natText_clean (n : Nat) : ' ' ∉ natText n ∧ '\n' ∉ natText n := by
  constructor <;> intro h <;> exact absurd (natText_digit n _ h) (by decide)

private theorem readNat_natText (n : Nat) : readNat (natText n) = some n := by
  rw [readNat, if_pos ⟨Nat.toDigits_ne_nil, fun c hc => natText_digit n c hc⟩]
  exact congrArg some Nat.ofDigitChars_ten_toDigits

private theorem three (a b c : List Char) (ha : ' ' ∉ a) (hb : ' ' ∉ b) (hc : ' ' ∉ c) : split ' ' (a ++ ' ' :: (b ++ ' ' :: c)) = [a, b, c] := by
  rw [split_sep _ _ _ ha, split_sep _ _ _ hb, split_clean _ _ hc]

/-- A line of the file without the line feed. -/
private def entryLine (fmt : K → List Char) (x : Nat × Nat × K) : List Char := natText (x.1 + 1) ++ ' ' :: (natText (x.2.1 + 1) ++ ' ' :: fmt x.2.2)

private theorem readEntry_eq (parse : List Char → Option K) (fmt : K → List Char) (hf : Readable parse fmt) (m n : Nat) (x : Nat × Nat × K)
    (h1 : x.1 < m) (h2 : x.2.1 < n) : readEntry parse m n (entryLine fmt x) = some x := by
  rw [readEntry, entryLine, three _ _ _ (natText_clean _).1 (natText_clean _).1 (hf.space _)]
  simp only [readNat_natText, hf.parse, Option.bind_some]
  rw [if_pos ⟨by omega, by omega, by omega, by omega⟩]
  simp

private theorem mapM_entries (parse : List Char → Option K) (fmt : K → List Char) (hf : Readable parse fmt) (m n : Nat) (xs : List (Nat × Nat × K))
    (h : ∀ x ∈ xs, x.1 < m ∧ x.2.1 < n) : (xs.map (entryLine fmt)).mapM (readEntry parse m n) = some xs := by
  induction xs with
  | nil => rfl
  | cons x xs ih =>
    rw [List.map_cons, List.mapM_cons, readEntry_eq parse fmt hf m n x (h x (by simp)).1 (h x (by simp)).2,
      ih fun y hy => h y (List.mem_cons_of_mem _ hy)]
    rfl

private theorem mem_triplets (rows : List (List Nat × List K)) (i j : Nat) (v : K) :
    ∀ base, (i, j, v) ∈ tripletsFrom base rows ↔ ∃ (q : Nat) (row : List Nat × List K), i = base + q ∧ rows[q]? = some row ∧
      ∃ k : Nat, row.1[k]? = some j ∧ row.2[k]? = some v := by
  induction rows with
  | nil => simp [tripletsFrom]
  | cons r rows ih =>
    intro base
    rw [tripletsFrom, List.mem_append, ih]
    have hrow : (i, j, v) ∈ rowTriplets base r ↔ i = base ∧ ∃ k : Nat, r.1[k]? = some j ∧ r.2[k]? = some v := by
      simp only [rowTriplets, List.mem_map, Prod.mk.injEq]
      constructor
      · rintro ⟨⟨a, b⟩, hab, rfl, rfl, rfl⟩
        obtain ⟨k, hk⟩ := List.getElem?_of_mem hab
        rw [List.getElem?_zip_eq_some] at hk
        exact ⟨rfl, k, hk⟩
      · rintro ⟨rfl, k, h1, h2⟩
        refine ⟨(j, v), ?_, rfl, rfl, rfl⟩
        apply List.mem_of_getElem? (i := k)
        rw [List.getElem?_zip_eq_some]
        exact ⟨h1, h2⟩
    rw [hrow]
    constructor
    · rintro (⟨rfl, h⟩ | ⟨q, row, rfl, h1, h2⟩)
      · exact ⟨0, r, rfl, rfl, h⟩
      · exact ⟨q + 1, row, by omega, h1, h2⟩
    · rintro ⟨q, row, rfl, h1, h2⟩
      cases q with
      | zero =>
        obtain rfl : r = row := by simpa using h1
        exact Or.inl ⟨rfl, h2⟩
      | succ q => exact Or.inr ⟨q, row, by omega, by simpa using h1, h2⟩

private theorem length_triplets (rows : List (List Nat × List K)) (h : ∀ row ∈ rows, row.1.length = row.2.length) :
    ∀ base, (tripletsFrom base rows).length = (rows.map fun row => row.2.length).sum := by
  induction rows with
  | nil => intro base; rfl
  | cons r rows ih =>
    intro base
    rw [tripletsFrom, List.length_append, ih fun row hr => h row (List.mem_cons_of_mem _ hr), rowTriplets]
    simp [h r (by simp)]

private theorem read_dump (parse : List Char → Option K) (fmt : K → List Char) (hf : Readable parse fmt) (A : Csr K) (hA : ValidCsr A) :
    readMatrixMarket parse (dumpCsr fmt A) = some ⟨A.rows.length, A.ncols, tripletsFrom 0 A.rows⟩ := by
  have hlines : dumpCsr fmt A = ((mmHeader :: (natText A.rows.length ++ ' ' :: (natText A.ncols ++ ' ' :: natText (nnz A))) ::
      (tripletsFrom 0 A.rows).map (entryLine fmt)).flatMap (· ++ ['\n'])) := by
    rw [dumpCsr]
    simp only [List.flatMap_cons, List.append_assoc, List.singleton_append, List.cons_append]
    have he : ((tripletsFrom 0 A.rows).map (entryLine fmt)).flatMap (· ++ ['\n']) = (tripletsFrom 0 A.rows).flatMap (mmEntry fmt) := by
      rw [List.flatMap_map]
      congr 1
      funext x
      simp [mmEntry, entryLine]
    rw [he]
    rfl
  have hclean : ∀ l ∈ mmHeader :: (natText A.rows.length ++ ' ' :: (natText A.ncols ++ ' ' :: natText (nnz A))) ::
      (tripletsFrom 0 A.rows).map (entryLine fmt), '\n' ∉ l := by
    intro l hl
    rcases List.mem_cons.1 hl with rfl | hl
    · decide +kernel
    rcases List.mem_cons.1 hl with rfl | hl
    · simp [(natText_clean _).2]
    · obtain ⟨x, -, rfl⟩ := List.mem_map.1 hl
      simp [entryLine, (natText_clean _).2, hf.newline]
  have hin : ∀ x ∈ tripletsFrom 0 A.rows, x.1 < A.rows.length ∧ x.2.1 < A.ncols := by
    rintro ⟨i, j, v⟩ hx
    obtain ⟨q, row, rfl, h1, k, h2, -⟩ := (mem_triplets A.rows i j v 0).1 hx
    refine ⟨by simpa using (List.getElem?_eq_some_iff.1 h1).1, (hA row (List.mem_of_getElem? h1)).2 j (List.mem_of_getElem? h2)⟩
  rw [readMatrixMarket, hlines, linesOf_eq _ hclean]
  simp only
  have hh : mmHeader = "%%MatrixMarket matrix coordinate real general".toList := rfl
  rw [if_pos hh, three _ _ _ (natText_clean _).1 (natText_clean _).1 (natText_clean _).1]
  simp only [readNat_natText, Option.bind_some]
  rw [if_pos (by rw [List.length_map, length_triplets _ (fun row hr => (hA row hr).1)]; rfl), mapM_entries parse fmt hf _ _ _ hin]
  rfl

/-- **C91.** A reader of the matrix market format finds in the file of a sparse matrix its numbers of rows and columns and exactly the stored
entries. -/
theorem C91_matrix_market (parse : List Char → Option K) (fmt : K → List Char) (hf : Readable parse fmt) (A : Csr K) (hA : ValidCsr A) :
    ∃ es, readMatrixMarket parse (dumpCsr fmt A) = some ⟨A.rows.length, A.ncols, es⟩ ∧ es.length = nnz A ∧
      ∀ i j v, (i, j, v) ∈ es ↔ Stores A i j v := by
  refine ⟨_, read_dump parse fmt hf A hA, length_triplets _ (fun row hr => (hA row hr).1) 0, ?_⟩
  intro i j v
  rw [mem_triplets]
  constructor
  · rintro ⟨q, row, rfl, h1, h2⟩
    exact ⟨row, by simpa using h1, h2⟩
  · rintro ⟨row, h1, h2⟩
    exact ⟨i, row, by simp, h1, h2⟩

private theorem triplets_inj (rows rows' : List (List Nat × List K)) (h : ∀ row ∈ rows, row.1.length = row.2.length)
    (h' : ∀ row ∈ rows', row.1.length = row.2.length) (hl : rows.length = rows'.length) :
    ∀ base, tripletsFrom base rows = tripletsFrom base rows' → rows = rows' := by
  induction rows generalizing rows' with
  | nil =>
    intro base _
    exact (List.length_eq_zero_iff.1 hl.symm).symm
  | cons r rows ih =>
    intro base he
    cases rows' with
    | nil => simp at hl
    | cons r' rows' =>
      have hlater : ∀ (rs : List (List Nat × List K)), (tripletsFrom (base + 1) rs).filter (fun x => decide (x.1 = base)) = [] := by
        intro rs
        rw [List.filter_eq_nil_iff]
        rintro ⟨i, j, v⟩ hx
        obtain ⟨q, -, rfl, -⟩ := (mem_triplets rs i j v _).1 hx
        simp; omega
      have hnow : ∀ (r : List Nat × List K), (rowTriplets base r).filter (fun x => decide (x.1 = base)) = rowTriplets base r := by
        intro r
        rw [List.filter_eq_self]
        intro x hx
        obtain ⟨y, -, rfl⟩ := List.mem_map.1 hx
        simp
      have hr : rowTriplets base r = rowTriplets base r' := by
        have := congrArg (List.filter fun x : Nat × Nat × K => decide (x.1 = base)) he
        rw [tripletsFrom, tripletsFrom, List.filter_append, List.filter_append, hlater, hlater, hnow, hnow] at this
        simpa using this
      have hz : r.1.zip r.2 = r'.1.zip r'.2 := by
        have := congrArg (List.map fun x : Nat × Nat × K => x.2) hr
        simpa [rowTriplets, Function.comp_def] using this
      have hrr : r = r' := by
        have e1 := congrArg List.unzip hz
        rw [List.unzip_zip (h r (by simp)), List.unzip_zip (h' r' (by simp))] at e1
        exact e1
      rw [hrr, ih rows' (fun row hm => h row (List.mem_cons_of_mem _ hm)) (fun row hm => h' row (List.mem_cons_of_mem _ hm))
        (by simpa using hl) (base + 1) (by
          rw [tripletsFrom, tripletsFrom, hr] at he
          exact List.append_cancel_left he)]

/-- C91: no two matrices have the same file. -/
theorem C91_file_determines_matrix (parse : List Char → Option K) (fmt : K → List Char) (hf : Readable parse fmt) (A B : Csr K) (hA : ValidCsr A)
    (hB : ValidCsr B) (h : dumpCsr fmt A = dumpCsr fmt B) : A = B := by
  have h1 := read_dump parse fmt hf A hA
  rw [h, read_dump parse fmt hf B hB] at h1
  simp only [Option.some.injEq, Coordinates.mk.injEq] at h1
  obtain ⟨a, b, c⟩ := h1
  have := triplets_inj B.rows A.rows (fun row hr => (hB row hr).1) (fun row hr => (hA row hr).1) a 0 c
  cases A
  cases B
  simp_all

private theorem split_join (w : List Char) (ws : List (List Char)) (hw : ' ' ∉ w) (hws : ∀ x ∈ ws, ' ' ∉ x) :
    split ' ' (w ++ ws.flatMap (' ' :: ·)) = w :: ws := by
  induction ws generalizing w with
  | nil => simp [split_clean _ _ hw]
  | cons x ws ih =>
    rw [List.flatMap_cons, List.cons_append, split_sep _ _ _ hw, ih x (hws x (by simp)) fun y hy => hws y (List.mem_cons_of_mem _ hy)]

/-- **C91.** A dense matrix with at least one column (or without rows) can be read back from its file. -/
theorem C91_dense (parse : List Char → Option K) (fmt : K → List Char) (hf : Readable parse fmt) (nrows ncols : Nat) (A : Nat → Nat → K)
    (h : 0 < ncols ∨ nrows = 0) :
    ∃ text, dumpMatrix fmt nrows ncols A = some text ∧
      readDense parse text = some ((List.range nrows).map fun i => (List.range ncols).map (A i)) := by
  rcases h with h | rfl
  swap
  · exact ⟨[], by simp [dumpMatrix], by simp [readDense, linesOf, split]⟩
  have hr : ∀ row : Nat → K, matrixRow fmt ncols row =
      some ((fmt (row 0) ++ ((List.range' 1 (ncols - 1)).map fun j => fmt (row j)).flatMap (' ' :: ·)) ++ ['\n']) := by
    intro row
    rw [matrixRow, if_pos h, List.flatMap_map]
  have hm : (List.range nrows).mapM (fun i => matrixRow fmt ncols (A i)) = some ((List.range nrows).map fun i =>
      (fmt (A i 0) ++ ((List.range' 1 (ncols - 1)).map fun j => fmt (A i j)).flatMap (' ' :: ·)) ++ ['\n']) :=
    Assembly.mapM_some_map _ _ _ fun i _ => hr (A i)
  have hrange : List.range ncols = 0 :: List.range' 1 (ncols - 1) := by
    clear hr hm
    rw [List.range_eq_range']
    obtain ⟨m, rfl⟩ := Nat.exists_eq_succ_of_ne_zero h.ne'
    rw [Nat.succ_eq_add_one, List.range'_succ, Nat.add_sub_cancel]
  refine ⟨_, by rw [dumpMatrix, hm]; rfl, ?_⟩
  rw [← List.flatMap_def]
  have hl : ((List.range nrows).flatMap fun i =>
      (fmt (A i 0) ++ ((List.range' 1 (ncols - 1)).map fun j => fmt (A i j)).flatMap (' ' :: ·)) ++ ['\n']) =
      ((List.range nrows).map fun i => fmt (A i 0) ++ ((List.range' 1 (ncols - 1)).map fun j => fmt (A i j)).flatMap (' ' :: ·)).flatMap (· ++ ['\n']) := by
    rw [List.flatMap_map]
  rw [readDense, hl, linesOf_eq, Option.bind_some, List.mapM_map]
  · apply Assembly.mapM_some_map
    intro i _
    simp only [Function.comp]
    rw [split_join _ _ (hf.space _) (by intro x hx; obtain ⟨j, -, rfl⟩ := List.mem_map.1 hx; exact hf.space _), hrange, ← List.map_cons (f := fun j => fmt (A i j)), List.mapM_map]
    exact Assembly.mapM_some_map _ _ _ fun j _ => hf.parse _
  · intro l hl
    obtain ⟨i, -, rfl⟩ := List.mem_map.1 hl
    simp [hf.newline]

/-- C91 (finding): a matrix with rows but without columns is not written: reading its first entry panics. -/
theorem C91_dense_without_columns (fmt : K → List Char) (nrows : Nat) (A : Nat → Nat → K) (h : 0 < nrows) : dumpMatrix fmt nrows 0 A = none := by
  obtain ⟨n, rfl⟩ := Nat.exists_eq_succ_of_ne_zero h.ne'
  simp [dumpMatrix, matrixRow, List.range_succ_eq_map, List.mapM_cons]

/-! ### Connectivity -/

private theorem positions_nodup (rows : List (List Nat × List K)) (h : ∀ row ∈ rows, row.1.Nodup) :
    ∀ base, ((tripletsFrom base rows).map fun x => (x.1, x.2.1)).Nodup := by
  induction rows with
  | nil => intro base; simp [tripletsFrom]
  | cons r rows ih =>
    intro base
    rw [tripletsFrom, List.map_append, List.nodup_append]
    refine ⟨?_, ih (fun row hr => h row (List.mem_cons_of_mem _ hr)) _, ?_⟩
    · have : (rowTriplets base r).map (fun x => (x.1, x.2.1)) = ((r.1.zip r.2).map Prod.fst).map fun j => (base, j) := by
        simp [rowTriplets, Function.comp_def]
      rw [this]
      refine List.Nodup.map (fun a b hab => by simpa using hab) ?_
      have hsub : ∀ (a : List Nat) (b : List K), ((a.zip b).map Prod.fst).Sublist a := by
        intro a
        induction a with
        | nil => simp
        | cons x a iha =>
          intro b
          cases b with
          | nil => simp
          | cons y b => simpa using iha b
      exact (hsub _ _).nodup (h r (by simp))
    · intro a ha b hb hab
      obtain ⟨x, hx, rfl⟩ := List.mem_map.1 ha
      obtain ⟨⟨i, j, v⟩, hy, rfl⟩ := List.mem_map.1 hb
      obtain ⟨q, -, rfl, -⟩ := (mem_triplets rows i j v _).1 hy
      obtain ⟨z, -, rfl⟩ := List.mem_map.1 hx
      simp only [Prod.mk.injEq] at hab
      omega

private theorem mem_addSorted [Add K] (j : Nat) (v : K) (row : List (Nat × K)) (hs : (row.map Prod.fst).Pairwise (· < ·)) :
    ((addSorted j v row).map Prod.fst).Pairwise (· < ·) ∧ (∀ c, c ∈ (addSorted j v row).map Prod.fst ↔ c = j ∨ c ∈ row.map Prod.fst) ∧
    ∀ c w, (c, w) ∈ addSorted j v row ↔ (c ≠ j ∧ (c, w) ∈ row) ∨ (c = j ∧ ((∃ w0, (j, w0) ∈ row ∧ w = w0 + v) ∨ (j ∉ row.map Prod.fst ∧ w = v))) := by
  induction row with
  | nil => simp [addSorted]
  | cons r row ih =>
    obtain ⟨c0, w0⟩ := r
    rw [List.map_cons, List.pairwise_cons] at hs
    obtain ⟨i1, i2, i3⟩ := ih hs.2
    rw [addSorted]
    split_ifs with h1 h2
    · have hnot : j ∉ ((c0, w0) :: row).map Prod.fst := by
        rw [List.map_cons, List.mem_cons]
        rintro (rfl | hj)
        · omega
        · have := hs.1 j hj
          simp only at this
          omega
      refine ⟨?_, by simp, ?_⟩
      · rw [List.map_cons, List.pairwise_cons, List.map_cons]
        refine ⟨?_, List.pairwise_cons.2 hs⟩
        intro a ha
        rcases List.mem_cons.1 ha with rfl | ha
        · exact h1
        · exact lt_trans h1 (hs.1 a ha)
      · intro c w
        rw [List.mem_cons]
        constructor
        · rintro (h | h)
          · obtain ⟨rfl, rfl⟩ := Prod.mk.inj h
            exact Or.inr ⟨rfl, Or.inr ⟨hnot, rfl⟩⟩
          · refine Or.inl ⟨?_, h⟩
            rintro rfl
            exact hnot (List.mem_map_of_mem (f := Prod.fst) h)
        · rintro (⟨-, h⟩ | ⟨rfl, ⟨w1, h, -⟩ | ⟨-, rfl⟩⟩)
          · exact Or.inr h
          · exact absurd (List.mem_map_of_mem (f := Prod.fst) h) hnot
          · exact Or.inl rfl
    · subst h2
      have hnot : j ∉ row.map Prod.fst := fun hj => absurd (hs.1 j hj) (lt_irrefl _)
      refine ⟨List.pairwise_cons.2 hs, by simp, ?_⟩
      intro c w
      simp only [List.mem_cons, Prod.mk.injEq, List.map_cons]
      constructor
      · rintro (⟨rfl, rfl⟩ | h)
        · refine Or.inr ⟨rfl, Or.inl ⟨w0, Or.inl ⟨trivial, rfl⟩, rfl⟩⟩
        · refine Or.inl ⟨?_, Or.inr h⟩
          rintro rfl
          exact hnot (List.mem_map_of_mem (f := Prod.fst) h)
      · rintro (⟨hne, ⟨rfl, -⟩ | h⟩ | ⟨rfl, ⟨w1, ⟨-, rfl⟩ | h, rfl⟩ | ⟨h, -⟩⟩)
        · exact absurd rfl hne
        · exact Or.inr h
        · simp
        · exact absurd (List.mem_map_of_mem (f := Prod.fst) h) hnot
        · exact absurd (Or.inl trivial) h
    · refine ⟨?_, ?_, ?_⟩
      · rw [List.map_cons, List.pairwise_cons]
        refine ⟨?_, i1⟩
        intro a ha
        rcases (i2 a).1 ha with rfl | ha
        · simp only; omega
        · exact hs.1 a ha
      · intro c
        rw [List.map_cons, List.mem_cons, i2, List.map_cons, List.mem_cons]
        tauto
      · intro c w
        simp only [List.mem_cons, i3, Prod.mk.injEq, List.map_cons]
        constructor
        · rintro (⟨rfl, rfl⟩ | ⟨hne, h⟩ | ⟨rfl, ⟨w1, h, rfl⟩ | ⟨h, rfl⟩⟩)
          · exact Or.inl ⟨fun h => h2 h.symm, Or.inl ⟨rfl, rfl⟩⟩
          · exact Or.inl ⟨hne, Or.inr h⟩
          · exact Or.inr ⟨rfl, Or.inl ⟨w1, Or.inr h, rfl⟩⟩
          · exact Or.inr ⟨rfl, Or.inr ⟨by rintro (h' | h'); exacts [h2 h', h h'], rfl⟩⟩
        · rintro (⟨hne, ⟨rfl, rfl⟩ | h⟩ | ⟨rfl, ⟨w1, ⟨rfl, -⟩ | h, rfl⟩ | ⟨h, rfl⟩⟩)
          · exact Or.inl ⟨rfl, rfl⟩
          · exact Or.inr (Or.inl ⟨hne, h⟩)
          · exact absurd rfl h2
          · exact Or.inr (Or.inr ⟨rfl, Or.inl ⟨w1, h, rfl⟩⟩)
          · exact Or.inr (Or.inr ⟨rfl, Or.inr ⟨fun h' => h (Or.inr h'), rfl⟩⟩)

private theorem sum_row [AddMonoidWithOne K] (js : List Nat) :
    let row := js.foldl (fun row j => addSorted j (1 : K) row) []
    (row.map Prod.fst).Pairwise (· < ·) ∧ (∀ c, c ∈ row.map Prod.fst ↔ c ∈ js) ∧ ∀ c w, (c, w) ∈ row ↔ c ∈ js ∧ w = (js.count c : K) := by
  induction js using List.reverseRecOn with
  | nil => simp
  | append_singleton js j ih =>
    obtain ⟨i1, i2, i3⟩ := ih
    simp only [List.foldl_append, List.foldl_cons, List.foldl_nil]
    obtain ⟨m1, m2, m3⟩ := mem_addSorted j (1 : K) _ i1
    refine ⟨m1, ?_, ?_⟩
    · intro c
      rw [m2, i2]
      simp [or_comm]
    · intro c w
      rw [m3]
      simp only [i2, i3, List.mem_append, List.mem_singleton, List.count_append]
      by_cases hc : c = j
      · subst hc
        simp only [ne_eq, not_true_eq_false, false_and, true_and, or_true, false_or, List.count_singleton_self, Nat.cast_add, Nat.cast_one]
        constructor
        · rintro (⟨w0, ⟨-, rfl⟩, rfl⟩ | ⟨h, rfl⟩)
          · rfl
          · rw [List.count_eq_zero.2 h]; simp
        · rintro rfl
          by_cases h : c ∈ js
          · exact Or.inl ⟨_, ⟨h, rfl⟩, rfl⟩
          · right
            rw [List.count_eq_zero.2 h]
            simp [h]
      · have h0 : List.count c [j] = 0 := by
          rw [List.count_eq_zero]
          simpa using hc
        simp [hc, h0]

private theorem foldlM_push (nrows ncols : Nat) (xs : List (Nat × Nat × K)) :
    ∀ acc, (∀ x ∈ xs, x.1 < nrows ∧ x.2.1 < ncols) → xs.foldlM (cooPush nrows ncols) acc = some (acc ++ xs) := by
  induction xs with
  | nil => intro acc _; simp
  | cons x xs ih =>
    intro acc h
    rw [List.foldlM_cons, cooPush, if_pos (h x (by simp))]
    simp only [Option.bind_eq_bind, Option.bind_some]
    rw [ih _ fun y hy => h y (List.mem_cons_of_mem _ hy)]
    simp

private theorem filter_elements [One K] (elements : List (List Nat)) (i : Nat) :
    ∀ base, ((elements.zipIdx base).flatMap fun e => e.1.map fun j => (e.2, j, (1 : K))).filter (fun x => decide (x.1 = base + i)) =
      (elements.getD i []).map fun j => (base + i, j, (1 : K)) := by
  induction elements generalizing i with
  | nil => intro base; simp
  | cons e es ih =>
    intro base
    have hlater : ((es.zipIdx (base + 1)).flatMap fun e => e.1.map fun j => (e.2, j, (1 : K))).filter (fun x => decide (x.1 = base)) = [] := by
      rw [List.filter_eq_nil_iff]
      intro x hx
      obtain ⟨⟨e', q⟩, hq, hx⟩ := List.mem_flatMap.1 hx
      obtain ⟨j, -, rfl⟩ := List.mem_map.1 hx
      have := (List.mem_zipIdx hq).1
      simp; omega
    rw [List.zipIdx_cons, List.flatMap_cons, List.filter_append]
    cases i with
    | zero =>
      rw [Nat.add_zero, hlater, List.append_nil, List.filter_eq_self.2]
      · rfl
      · intro x hx
        obtain ⟨j, -, rfl⟩ := List.mem_map.1 hx
        simp
    | succ i =>
      rw [List.filter_eq_nil_iff.2, List.nil_append]
      · have := ih i (base + 1)
        rw [show base + 1 + i = base + (i + 1) by omega] at this
        rw [this]
        rfl
      · intro x hx
        obtain ⟨j, -, rfl⟩ := List.mem_map.1 hx
        simp

/-- **C91.** The node file of a mesh has an entry one for each pair of vertices that have an element in common, and the element file has an
entry for each vertex of each element (the number of times that the element lists it). No position occurs twice. -/
theorem C91_connectivity [AddMonoidWithOne K] (parse : List Char → Option K) (fmt : K → List Char) (hf : Readable parse fmt)
    (ord : List Nat → List Nat) (hord : ∀ l, (ord l).Perm l) (elements : List (List Nat)) (numVertices : Nat)
    (h : ∀ e ∈ elements, ∀ v ∈ e, v < numVertices) :
    ∃ nodeFile elementFile, dumpConnectivity fmt ord elements numVertices = some (nodeFile, elementFile) ∧
      (∃ es, readMatrixMarket parse nodeFile = some ⟨numVertices, numVertices, es⟩ ∧ (es.map fun x => (x.1, x.2.1)).Nodup ∧
        ∀ i j v, (i, j, v) ∈ es ↔ v = 1 ∧ ∃ e ∈ elements, i ∈ e ∧ j ∈ e) ∧
      ∃ es, readMatrixMarket parse elementFile = some ⟨elements.length, numVertices, es⟩ ∧ (es.map fun x => (x.1, x.2.1)).Nodup ∧
        ∀ i j v, (i, j, v) ∈ es ↔ ∃ e, elements[i]? = some e ∧ j ∈ e ∧ v = (e.count j : K) := by
  obtain ⟨p, hp, hv, hrows, hcols, hlane⟩ := C20_pattern_is_exact ord hord ⟨1, numVertices, elements⟩ h
  simp only [Nat.one_mul, Nat.div_one] at hrows hcols hlane
  have hmapM : (List.range p.nrows).mapM p.lane = some ((List.range p.nrows).map fun i => (p.lane i).getD []) := by
    apply Assembly.mapM_some_map
    intro i hi
    obtain ⟨lane, hl, -⟩ := hlane i (List.mem_range.1 hi)
    rw [hl]
    rfl
  set A : Csr K := ⟨p.ncols, ((List.range p.nrows).map fun i => (p.lane i).getD []).map fun l => (l, List.replicate l.length 1)⟩ with hAdef
  have hones : onesCsr (K := K) p = some A := by rw [onesCsr, hmapM]; rfl
  have hrowA : ∀ i row, A.rows[i]? = some row ↔ i < numVertices ∧ row = ((p.lane i).getD [], List.replicate ((p.lane i).getD []).length 1) := by
    intro i row
    simp only [hAdef, List.map_map, List.getElem?_map, hrows]
    by_cases hi : i < numVertices
    · rw [List.getElem?_range hi]
      simp [hi, eq_comm]
    · rw [List.getElem?_eq_none (by simpa using hi)]
      simp [hi]
  have hlane' : ∀ i, i < numVertices → ∀ j, j ∈ (p.lane i).getD [] ↔ ∃ e ∈ elements, i ∈ e ∧ j ∈ e := by
    intro i hi j
    obtain ⟨lane, hl, hm⟩ := hlane i (by omega)
    rw [hl]
    exact hm j
  have hvalidA : ValidCsr A := by
    intro row hrow
    obtain ⟨i, hget⟩ := List.getElem?_of_mem hrow
    obtain ⟨hi, rfl⟩ := (hrowA i row).1 hget
    refine ⟨by simp, ?_⟩
    intro j hj
    obtain ⟨e, he, -, hje⟩ := (hlane' i hi j).1 hj
    exact lt_of_lt_of_eq (h e he j hje) hcols.symm
  set coo : List (Nat × Nat × K) := elements.zipIdx.flatMap fun e => e.1.map fun j => (e.2, j, (1 : K)) with hcoo
  have hpush : elementCoo (K := K) elements numVertices = some coo := by
    rw [elementCoo, foldlM_push]
    · simp [hcoo]
    · intro x hx
      obtain ⟨⟨e, q⟩, hq, hx⟩ := List.mem_flatMap.1 hx
      obtain ⟨j, hj, rfl⟩ := List.mem_map.1 hx
      have hq' := List.mem_zipIdx hq
      simp only [Nat.zero_add, Nat.sub_zero] at hq'
      exact ⟨hq'.2.1, h e (hq'.2.2 ▸ List.getElem_mem _) j hj⟩
  set B : Csr K := csrFromCoo elements.length numVertices coo with hBdef
  have hBrow : ∀ i row, B.rows[i]? = some row ↔ i < elements.length ∧
      row = ((elements.getD i []).foldl (fun row j => addSorted j (1 : K) row) []).unzip := by
    intro i row
    simp only [hBdef, csrFromCoo, List.getElem?_map]
    by_cases hi : i < elements.length
    · rw [List.getElem?_range hi]
      have := filter_elements (K := K) elements i 0
      rw [Nat.zero_add] at this
      simp only [Option.map_some, Option.some.injEq, hi, true_and]
      rw [hcoo, this, List.foldl_map]
      exact eq_comm
    · rw [List.getElem?_eq_none (by simpa using hi)]
      simp [hi]
  have hunzip : ∀ (l : List (Nat × K)) (j : Nat) (v : K), (∃ k : Nat, l.unzip.1[k]? = some j ∧ l.unzip.2[k]? = some v) ↔ (j, v) ∈ l := by
    intro l j v
    rw [List.unzip_eq_map]
    constructor
    · rintro ⟨k, h1, h2⟩
      rw [List.getElem?_map] at h1 h2
      obtain ⟨x, hx, rfl⟩ := Option.map_eq_some_iff.1 h1
      obtain ⟨y, hy, rfl⟩ := Option.map_eq_some_iff.1 h2
      rw [hx] at hy
      obtain rfl := Option.some.inj hy
      exact List.mem_of_getElem? hx
    · intro hx
      obtain ⟨k, hk⟩ := List.getElem?_of_mem hx
      exact ⟨k, by simp [hk], by simp [hk]⟩
  have hvalidB : ValidCsr B := by
    intro row hrow
    obtain ⟨i, hget⟩ := List.getElem?_of_mem hrow
    obtain ⟨hi, rfl⟩ := (hBrow i row).1 hget
    refine ⟨by simp, ?_⟩
    intro j hj
    rw [List.unzip_eq_map] at hj
    have := ((sum_row (K := K) (elements.getD i [])).2.1 j).1 hj
    rw [List.getD_eq_getElem?_getD, List.getElem?_eq_getElem hi, Option.getD_some] at this
    exact h _ (List.getElem_mem hi) j this
  have hlenA : A.rows.length = numVertices := by simp [hAdef, hrows]
  have hlenB : B.rows.length = elements.length := by simp [hBdef, csrFromCoo]
  refine ⟨dumpCsr fmt A, dumpCsr fmt B, ?_, ⟨tripletsFrom 0 A.rows, ?_, ?_, ?_⟩, tripletsFrom 0 B.rows, ?_, ?_, ?_⟩
  · rw [dumpConnectivity, hp, Option.bind_some, hones, Option.bind_some, hpush]
    rfl
  · rw [read_dump parse fmt hf A hvalidA, hlenA, ← hcols]
  · apply positions_nodup
    intro row hrow
    obtain ⟨i, hget⟩ := List.getElem?_of_mem hrow
    obtain ⟨hi, rfl⟩ := (hrowA i row).1 hget
    obtain ⟨lane', hl', hs, -⟩ := hv.lanes i (by omega)
    simp only [hl', Option.getD_some]
    exact hs.imp fun h => h.ne
  · intro i j v
    rw [mem_triplets]
    constructor
    · rintro ⟨q, row, rfl, h1, k, h2, h3⟩
      rw [Nat.zero_add]
      obtain ⟨hi, rfl⟩ := (hrowA q row).1 h1
      refine ⟨?_, (hlane' q hi j).1 (List.mem_of_getElem? h2)⟩
      exact (List.mem_replicate.1 (List.mem_of_getElem? h3)).2
    · rintro ⟨rfl, e, he, hi, hj⟩
      have hin := h e he i hi
      obtain ⟨k, hk⟩ := List.getElem?_of_mem ((hlane' i hin j).2 ⟨e, he, hi, hj⟩)
      refine ⟨i, _, by simp, (hrowA i _).2 ⟨hin, rfl⟩, k, hk, ?_⟩
      rw [List.getElem?_replicate, if_pos (List.getElem?_eq_some_iff.1 hk).1]
  · rw [read_dump parse fmt hf B hvalidB, hlenB]
    rfl
  · apply positions_nodup
    intro row hrow
    obtain ⟨i, hget⟩ := List.getElem?_of_mem hrow
    obtain ⟨hi, rfl⟩ := (hBrow i row).1 hget
    rw [List.unzip_eq_map]
    exact (sum_row (K := K) (elements.getD i [])).1.imp (fun h => h.ne)
  · intro i j v
    rw [mem_triplets]
    have key : ∀ q, q < elements.length → ((∃ k : Nat, (((elements.getD q []).foldl (fun row j => addSorted j (1 : K) row) []).unzip).1[k]? = some j ∧
        (((elements.getD q []).foldl (fun row j => addSorted j (1 : K) row) []).unzip).2[k]? = some v) ↔
        j ∈ elements.getD q [] ∧ v = ((elements.getD q []).count j : K)) := by
      intro q _
      rw [hunzip]
      exact (sum_row (K := K) (elements.getD q [])).2.2 j v
    have hgetD : ∀ q (hq : q < elements.length), elements.getD q [] = elements[q] := by
      intro q hq
      rw [List.getD_eq_getElem?_getD, List.getElem?_eq_getElem hq, Option.getD_some]
    constructor
    · rintro ⟨q, row, rfl, h1, h2⟩
      rw [Nat.zero_add]
      obtain ⟨hi, rfl⟩ := (hBrow q row).1 h1
      have := (key q hi).1 h2
      rw [hgetD q hi] at this
      exact ⟨elements[q], List.getElem?_eq_getElem hi, this⟩
    · rintro ⟨e, he, hj, hv⟩
      obtain ⟨hi, rfl⟩ := List.getElem?_eq_some_iff.1 he
      refine ⟨i, _, by simp, (hBrow i _).2 ⟨hi, rfl⟩, (key i hi).2 ?_⟩
      rw [hgetD i hi]
      exact ⟨hj, hv⟩

/-- C91: a vertex index that is out of range panics. -/
theorem C91_connectivity_panics [AddMonoidWithOne K] (fmt : K → List Char) (ord : List Nat → List Nat) (elements : List (List Nat)) (numVertices : Nat)
    (h : ¬ ∀ e ∈ elements, ∀ v ∈ e, v < numVertices) : dumpConnectivity fmt ord elements numVertices = none := by
  rw [dumpConnectivity, (C20_missing_node_panics ord ⟨1, numVertices, elements⟩ h _ (List.Perm.refl _) id).1]
  rfl

/-! ### Concrete cases -/

/-- Natural numbers in decimal digits are a readable format. -/
example : Readable readNat natText := ⟨readNat_natText, fun n => (natText_clean n).1, fun n => (natText_clean n).2⟩

example : String.ofList (dumpCsr natText ⟨3, [([0, 2], [5, 7]), ([], []), ([1], [12])]⟩) =
    "%%MatrixMarket matrix coordinate real general\n3 3 3\n1 1 5\n1 3 7\n3 2 12\n" := by
  decide +kernel

example : ValidCsr (⟨3, [([0, 2], [5, 7]), ([], []), ([1], [12])]⟩ : Csr Nat) := by unfold ValidCsr; decide

/-- Two triangles with a common edge; the second lists a vertex twice. -/
example : ((dumpConnectivity natText (fun l => l) [[0, 1, 2], [2, 1, 1]] 3).map fun x => (String.ofList x.1, String.ofList x.2)) =
    some ("%%MatrixMarket matrix coordinate real general\n3 3 9\n1 1 1\n1 2 1\n1 3 1\n2 1 1\n2 2 1\n2 3 1\n3 1 1\n3 2 1\n3 3 1\n",
      "%%MatrixMarket matrix coordinate real general\n2 3 5\n1 1 1\n1 2 1\n1 3 1\n2 2 2\n2 3 1\n") := by
  decide +kernel

example : (dumpMatrix natText 2 2 fun i j => 10 * i + j).map String.ofList = some "0 1\n10 11\n" := by decide +kernel

example : globalVectorFromPointFn 2 [3, 4] (fun i (p : Nat) => ![p, i]) = [3, 0, 4, 1] := by decide

example : extractByNodeIndex 2 [10, 11, 20, 21, 30, 31] [2, 0] = some [30, 31, 10, 11] := by decide

end Fenris.Dump
