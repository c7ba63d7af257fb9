import Verif.Spec.CgWorkspace
import Verif.Props.CgConjugate
import Mathlib.Algebra.BigOperators.Fin
/-! # C95: solves with a reused workspace -/
set_option autoImplicit false
set_option linter.unusedSectionVars false

namespace Fenris.CgBuffers
open Fenris.CgBuffers.Spec
open Cg (ErrorKind limitReached Vec)

section Generic
variable {K E : Type} [Add K] [Sub K] [Mul K] [Div K] [Zero K] [LE K] [DecidableLE K] [DecidableEq K] {n : Nat}

private theorem length_resize (v : List K) : (resize n v).length = n := by
  rw [resize, List.length_append, List.length_take, List.length_replicate]
  omega

/-- Two states that differ at most in the contents of `z` and `Ap`. -/
private structure Same (n : Nat) (s s' : State K) : Prop where
  x : s'.x = s.x
  xl : s.x.length = n
  r : s'.w.r = s.w.r
  rl : s.w.r.length = n
  p : s'.w.p = s.w.p
  pl : s.w.p.length = n
  z : s.w.z.length = n
  z' : s'.w.z.length = n
  ap : s.w.ap.length = n
  ap' : s'.w.ap.length = n
  zTr : s'.zTr = s.zTr
  num : s'.numIterations = s.numIterations

/-- Two calls of an operator with different output buffers. -/
private theorem apply_same {op : Op K E} (h : Overwrites n op) (call : Nat) {y y' x : List K} (hy : y.length = n) (hy' : y'.length = n)
    (hx : x.length = n) :
    (∃ o, o.length = n ∧ op call y x = (o, .ok ()) ∧ op call y' x = (o, .ok ())) ∨
      ∃ e o o', op call y x = (o, .error e) ∧ op call y' x = (o', .error e) := by
  have hv := h.verdict call y y' x hy hy' hx
  have ho := h.output call y y' x hy hy' hx
  have hl := h.length call y x hy hx
  revert hv ho hl
  obtain ⟨o, v⟩ := op call y x
  obtain ⟨o', v'⟩ := op call y' x
  intro hv ho hl
  simp only at hv ho hl
  subst hv
  cases v with
  | error e => exact Or.inr ⟨e, o, o', rfl, rfl⟩
  | ok u =>
    have := ho rfl
    subst this
    exact Or.inl ⟨o, hl, rfl, rfl⟩

private theorem iteration_same (c : Solver K E) (ho : Overwrites n c.operator) (hp : Overwrites n c.preconditioner) (b : List K)
    {s s' : State K} (h : Same n s s') :
    (∃ out w w', iteration c b s = .inl (out, w) ∧ iteration c b s' = .inl (out, w')) ∨
      ∃ t t', iteration c b s = .inr t ∧ iteration c b s' = .inr t' ∧ Same n t t' := by
  obtain ⟨x₀, ⟨r₀, z, p₀, ap⟩, zTr₀, num₀⟩ := s
  obtain ⟨x, ⟨r, z', p, ap'⟩, zTr, num⟩ := s'
  obtain ⟨h1, h2, h3, h4, h5, h6, h7, h8, h9, h10, h11, h12⟩ := h
  simp only at h1 h2 h3 h4 h5 h6 h7 h8 h9 h10 h11 h12
  subst h1 h3 h5 h11 h12
  unfold iteration
  simp only
  cases c.hasConverged x b (c.norm b) num r with
  | error kind => exact Or.inl ⟨_, _, _, rfl, rfl⟩
  | ok conv =>
    cases conv with
    | true => exact Or.inl ⟨_, _, _, rfl, rfl⟩
    | false =>
      simp only
      cases limitReached c.maxIter num with
      | some m => exact Or.inl ⟨_, _, _, rfl, rfl⟩
      | none =>
        simp only
        rcases apply_same ho (num + 1) h9 h10 h6 with ⟨o, hol, e1, e2⟩ | ⟨e, o, o', e1, e2⟩
        · rw [e1, e2]
          simp only
          split
          · exact Or.inl ⟨_, _, _, rfl, rfl⟩
          · split
            · exact Or.inl ⟨_, _, _, rfl, rfl⟩
            · unfold finishIteration
              simp only
              have hrl : (List.zipWith (fun (ri api : K) => ri - zTr / dot p o * api) r o).length = n := by
                rw [List.length_zipWith, h4, hol, min_self]
              rcases apply_same hp (num + 1) h7 h8 hrl with ⟨q, hql, e3, e4⟩ | ⟨e, q, q', e3, e4⟩
              · rw [e3, e4]
                refine Or.inr ⟨_, _, rfl, rfl, ⟨rfl, ?_, rfl, hrl, rfl, ?_, hql, hql, hol, hol, rfl, rfl⟩⟩
                · simp only [List.length_zipWith, h2, h6, min_self]
                · simp only [List.length_zipWith, h6, hql, min_self]
              · rw [e3, e4]
                exact Or.inl ⟨_, _, _, rfl, rfl⟩
        · rw [e1, e2]
          exact Or.inl ⟨_, _, _, rfl, rfl⟩

private theorem loop_same (c : Solver K E) (ho : Overwrites n c.operator) (hp : Overwrites n c.preconditioner) (b : List K) (fuel : Nat) :
    ∀ {s s' : State K}, Same n s s' → (loop c b fuel s).map Prod.fst = (loop c b fuel s').map Prod.fst := by
  induction fuel with
  | zero => intro s s' _; rfl
  | succ fuel ih =>
    intro s s' h
    rw [loop, loop]
    rcases iteration_same c ho hp b h with ⟨out, w, w', e1, e2⟩ | ⟨t, t', e1, e2, ht⟩
    · rw [e1, e2]
      rfl
    · rw [e1, e2]
      exact ih ht

/-- **C95.** The result of a solve does not depend on the content of the workspace: for operators and preconditioners that overwrite
their output, any two workspaces, whatever was solved with them before and however these solves ended, give the same solution, number of
iterations and verdict. -/
theorem C95_history_independent (c : Solver K E) (fuel : Nat) (w w' : Workspace K) (b x : List K)
    (ho : Overwrites x.length c.operator) (hp : Overwrites x.length c.preconditioner) :
    (solveWithGuess c fuel w b x).map Prod.fst = (solveWithGuess c fuel w' b x).map Prod.fst := by
  unfold solveWithGuess
  split
  · rename_i hb
    unfold start prepareBuffers
    simp only
    rcases apply_same ho 0 (length_resize w.r) (length_resize w'.r) rfl with ⟨o, hol, e1, e2⟩ | ⟨e, o, o', e1, e2⟩
    · rw [e1, e2]
      simp only
      have hrl : (List.zipWith (fun (ri bi : K) => bi - ri) o b).length = x.length := by
        rw [List.length_zipWith, hol, hb, min_self]
      rcases apply_same hp 0 (length_resize w.z) (length_resize w'.z) hrl with ⟨q, hql, e3, e4⟩ | ⟨e, q, q', e3, e4⟩
      · rw [e3, e4]
        simp only
        split
        · rfl
        · exact loop_same c ho hp b fuel ⟨rfl, rfl, rfl, hrl, rfl, hql, hql, hql, length_resize _, length_resize _, rfl, rfl⟩
      · rw [e3, e4]
        rfl
    · rw [e1, e2]
      rfl
  · rfl

private theorem map_done {α β : Type} {f : α → β} {r : Run α} {b : β} (h : r.map f = .done b) : ∃ a, r = .done a ∧ f a = b := by
  cases r with
  | panicked => cases h
  | running => cases h
  | done a => exact ⟨a, rfl, by injection h⟩

/-- **C95.** A program that solves any sequence of systems, of any sizes, with one workspace gets the same results as with a new workspace
for every system. -/
theorem C95_sequence (jobs : List (Solver K E × Nat × List K × List K))
    (h : ∀ j ∈ jobs, Overwrites j.2.2.2.length j.1.operator ∧ Overwrites j.2.2.2.length j.1.preconditioner) (w : Workspace K) :
    solveAll w jobs = solveEach jobs := by
  induction jobs generalizing w with
  | nil => rfl
  | cons j rest ih =>
    obtain ⟨c, fuel, b, x⟩ := j
    have hj := h _ List.mem_cons_self
    have hall := ih fun j hj => h j (List.mem_cons_of_mem _ hj)
    have hi := C95_history_independent c fuel w Workspace.default b x hj.1 hj.2
    rw [solveAll, solveEach]
    revert hi
    cases solveWithGuess c fuel w b x with
    | panicked =>
      intro hi
      cases hd : solveWithGuess c fuel Workspace.default b x with
      | panicked => rfl
      | running => rw [hd] at hi; cases hi
      | done a => rw [hd] at hi; cases hi
    | running =>
      intro hi
      cases hd : solveWithGuess c fuel Workspace.default b x with
      | panicked => rw [hd] at hi; cases hi
      | running => rfl
      | done a => rw [hd] at hi; cases hi
    | done a =>
      intro hi
      obtain ⟨a', hd, hfst⟩ := map_done hi.symm
      rw [hd]
      obtain ⟨o, w1⟩ := a
      obtain ⟨o', w2⟩ := a'
      simp only at hfst
      subst hfst
      simp only
      rw [hall w1]

/-- C95: the dense operator and the identity overwrite their output, for scalars of any kind. -/
theorem C95_dense_overwrites (rows : List (List K)) (hr : rows.length = n) :
    Overwrites n (denseOperator rows : Op K E) ∧ Overwrites n (identityOperator : Op K E) :=
  ⟨⟨fun _ _ _ _ _ => by simp [denseOperator, hr], fun _ _ _ _ _ _ _ => rfl, fun _ _ _ _ _ _ _ _ => rfl⟩,
   ⟨fun _ _ _ _ hx => hx, fun _ _ _ _ _ _ _ => rfl, fun _ _ _ _ _ _ _ _ => rfl⟩⟩

end Generic

section Refinement
variable {K E : Type} [Field K] [LinearOrder K] {n : Nat}
open Matrix

private theorem zipWith_ofFn {α β γ : Type} (f : α → β → γ) {n : Nat} (u : Fin n → α) (v : Fin n → β) :
    List.zipWith f (List.ofFn u) (List.ofFn v) = List.ofFn fun i => f (u i) (v i) := by
  apply List.ext_getElem
  · simp
  · intro i h1 h2
    simp

private theorem dot_ofFn (u v : Vec n K) : dot (List.ofFn u) (List.ofFn v) = u ⬝ᵥ v := by
  rw [dot, zipWith_ofFn, List.sum_ofFn]
  rfl

/-- The state on buffers and the state on vectors. -/
private structure Rel (n : Nat) (s : State K) (t : Cg.State n K) : Prop where
  x : s.x = List.ofFn t.x
  r : s.w.r = List.ofFn t.r
  z : s.w.z = List.ofFn t.z
  p : s.w.p = List.ofFn t.p
  ap : s.w.ap.length = n
  zTr : s.zTr = t.zTr
  num : s.numIterations = t.numIterations

/-- The outcome on buffers and the outcome on vectors. -/
private def outcome (o : Cg.Outcome n K E) : Outcome K E := ⟨List.ofFn o.x, o.numIterations, o.result⟩

private theorem iteration_refines {c : Solver K E} {d : Cg.Solver n K E} (h : SameSolver n c d) (b : Vec n K) {s : State K}
    {t : Cg.State n K} (hs : Rel n s t) :
    (∃ o w, iteration c (List.ofFn b) s = .inl (outcome o, w) ∧ Cg.iteration d b t = .inl o) ∨
      ∃ s' t', iteration c (List.ofFn b) s = .inr s' ∧ Cg.iteration d b t = .inr t' ∧ Rel n s' t' := by
  obtain ⟨x₀, ⟨r₀, z₀, p₀, ap⟩, zTr₀, num₀⟩ := s
  obtain ⟨x, r, z, p, zTr, num⟩ := t
  obtain ⟨h1, h2, h3, h4, h5, h6, h7⟩ := hs
  simp only at h1 h2 h3 h4 h5 h6 h7
  subst h1 h2 h3 h4 h6 h7
  unfold iteration Cg.iteration
  simp only [h.hasConverged, h.norm, h.maxIter]
  cases d.hasConverged x b (d.norm b) num₀ r with
  | error kind => exact Or.inl ⟨_, _, rfl, rfl⟩
  | ok conv =>
    cases conv with
    | true => exact Or.inl ⟨_, _, rfl, rfl⟩
    | false =>
      simp only
      cases limitReached d.maxIter num₀ with
      | some m => exact Or.inl ⟨_, _, rfl, rfl⟩
      | none =>
        simp only
        have hop := h.operator (num₀ + 1) ap p h5
        cases hd : d.operator (num₀ + 1) p with
        | error e =>
          obtain ⟨y', -, e1⟩ := hop.2 e hd
          rw [e1]
          exact Or.inl ⟨_, _, rfl, rfl⟩
        | ok u =>
          rw [hop.1 u hd]
          simp only [dot_ofFn]
          split
          · exact Or.inl ⟨_, _, rfl, rfl⟩
          · split
            · exact Or.inl ⟨_, _, rfl, rfl⟩
            · unfold finishIteration Cg.finishIteration
              simp only [zipWith_ofFn]
              have hpre := h.preconditioner (num₀ + 1) (List.ofFn z) (fun i => r i - zTr₀ / p ⬝ᵥ u * u i) (by simp)
              cases hd' : d.preconditioner (num₀ + 1) fun i => r i - zTr₀ / p ⬝ᵥ u * u i with
              | error e =>
                obtain ⟨y', -, e1⟩ := hpre.2 e hd'
                rw [e1]
                exact Or.inl ⟨_, _, rfl, rfl⟩
              | ok q =>
                rw [hpre.1 q hd']
                simp only [zipWith_ofFn, dot_ofFn]
                exact Or.inr ⟨_, _, rfl, rfl, ⟨rfl, rfl, rfl, rfl, by simp, rfl, rfl⟩⟩

private theorem loop_refines {c : Solver K E} {d : Cg.Solver n K E} (h : SameSolver n c d) (b : Vec n K) (fuel : Nat) :
    ∀ {s : State K} {t : Cg.State n K}, Rel n s t →
      (∀ o, Cg.loop d b fuel t = some o → (loop c (List.ofFn b) fuel s).map Prod.fst = .done (outcome o)) ∧
        (Cg.loop d b fuel t = none → loop c (List.ofFn b) fuel s = .running) := by
  induction fuel with
  | zero => intro s t _; exact ⟨fun o ho => (by cases ho), fun _ => rfl⟩
  | succ fuel ih =>
    intro s t hs
    rw [loop, Cg.loop]
    rcases iteration_refines h b hs with ⟨o, w, e1, e2⟩ | ⟨s', t', e1, e2, hs'⟩
    · rw [e1, e2]
      exact ⟨fun o' ho => by injection ho with ho; subst ho; rfl, fun ho => by cases ho⟩
    · rw [e1, e2]
      exact ih hs'

/-- **C95.** The solver on the buffers of a workspace, whatever they contain and however long they are, does the same as the solver on
vectors that C30, C31 and C38 are about: it never panics for matching dimensions, it returns when that one returns, and then with the
same solution, number of iterations and verdict. -/
theorem C95_refines {c : Solver K E} {d : Cg.Solver n K E} (h : SameSolver n c d) (fuel : Nat) (w : Workspace K) (b x : Vec n K) :
    (∀ o, Cg.solveWithGuess d fuel b x = some o →
      (solveWithGuess c fuel w (List.ofFn b) (List.ofFn x)).map Prod.fst = .done ⟨List.ofFn o.x, o.numIterations, o.result⟩) ∧
    (Cg.solveWithGuess d fuel b x = none → solveWithGuess c fuel w (List.ofFn b) (List.ofFn x) = .running) := by
  unfold solveWithGuess Cg.solveWithGuess
  rw [if_pos (by simp)]
  unfold start prepareBuffers
  simp only [List.length_ofFn]
  have hop := h.operator 0 (resize n w.r) x (length_resize _)
  cases hd : d.operator 0 x with
  | error e =>
    obtain ⟨y', -, e1⟩ := hop.2 e hd
    rw [e1]
    exact ⟨fun o' ho => by injection ho with ho; subst ho; rfl, fun ho => by cases ho⟩
  | ok ax =>
    rw [hop.1 ax hd]
    simp only [zipWith_ofFn]
    have hpre := h.preconditioner 0 (resize n w.z) (fun i => b i - ax i) (length_resize _)
    cases hd' : d.preconditioner 0 fun i => b i - ax i with
    | error e =>
      obtain ⟨y', -, e1⟩ := hpre.2 e hd'
      rw [e1]
      exact ⟨fun o' ho => by injection ho with ho; subst ho; rfl, fun ho => by cases ho⟩
    | ok q =>
      rw [hpre.1 q hd']
      simp only [dot_ofFn, h.norm]
      split
      · exact ⟨fun o' ho => by injection ho with ho; subst ho; simp [Run.map, List.map_ofFn, Function.comp_def], fun ho => by cases ho⟩
      · exact loop_refines h b fuel ⟨rfl, rfl, rfl, rfl, length_resize _, rfl, rfl⟩

/-- **C95.** Over a field the shipped operators do what is asked of them: dense matrices, CSR matrices (with `β = 0` and `α = 1`) and the
identity are the matrix-vector product and the identity, whatever the output buffer contains. -/
theorem C95_shipped_operators (A : Matrix (Fin n) (Fin n) K) :
    Implements n (denseOperator (List.ofFn fun i => List.ofFn (A i)) : Op K E) (Cg.matrixOperator A) ∧
    Implements n (csrOperator 0 1 (List.ofFn fun i => List.ofFn (A i)) : Op K E) (Cg.matrixOperator A) ∧
    Implements n (identityOperator : Op K E) Cg.identityOperator := by
  refine ⟨fun call y v hy => ⟨fun u hu => ?_, fun e he => by cases he⟩, fun call y v hy => ⟨fun u hu => ?_, fun e he => by cases he⟩,
    fun call y v hy => ⟨fun u hu => ?_, fun e he => by cases he⟩⟩
  · injection hu with hu
    subst hu
    simp only [denseOperator, List.map_ofFn, Function.comp_def, dot_ofFn]
    rfl
  · injection hu with hu
    subst hu
    obtain ⟨y', rfl⟩ : ∃ y' : Vec n K, y = List.ofFn y' := by subst hy; exact ⟨y.get, (List.ofFn_get y).symm⟩
    simp only [csrOperator, zipWith_ofFn, dot_ofFn, zero_mul, zero_add, one_mul]
    rfl
  · injection hu with hu
    subst hu
    rfl

/-- An operator that implements a function on vectors overwrites its output. -/
private theorem implements_overwrites {op : Op K E} {f : Nat → Vec n K → Except E (Vec n K)} (h : Implements n op f) : Overwrites n op := by
  have key : ∀ (call : Nat) (y x : List K), y.length = n → x.length = n →
      (∃ u : Vec n K, ∀ y' : List K, y'.length = n → op call y' x = (List.ofFn u, .ok ())) ∨
        ∃ e, ∀ y' : List K, y'.length = n → ∃ y'', y''.length = n ∧ op call y' x = (y'', .error e) := by
    intro call y x hy hx
    obtain ⟨v, rfl⟩ : ∃ v : Vec n K, x = List.ofFn v := by subst hx; exact ⟨x.get, (List.ofFn_get x).symm⟩
    cases hf : f call v with
    | ok u => exact Or.inl ⟨u, fun y' hy' => (h call y' v hy').1 u hf⟩
    | error e => exact Or.inr ⟨e, fun y' hy' => (h call y' v hy').2 e hf⟩
  refine ⟨fun call y x hy hx => ?_, fun call y y' x hy hy' hx => ?_, fun call y y' x hy hy' hx hok => ?_⟩
  · rcases key call y x hy hx with ⟨u, hu⟩ | ⟨e, he⟩
    · rw [hu y hy]; simp
    · obtain ⟨y'', hl, h1⟩ := he y hy
      rw [h1]
      exact hl
  · rcases key call y x hy hx with ⟨u, hu⟩ | ⟨e, he⟩
    · rw [hu y hy, hu y' hy']
    · obtain ⟨_, _, h1⟩ := he y hy
      obtain ⟨_, _, h2⟩ := he y' hy'
      rw [h1, h2]
  · rcases key call y x hy hx with ⟨u, hu⟩ | ⟨e, he⟩
    · rw [hu y hy, hu y' hy']
    · obtain ⟨_, _, h1⟩ := he y hy
      rw [h1] at hok
      cases hok

/-- **C95.** So, in exact arithmetic, CSR systems can share a workspace. -/
theorem C95_csr_overwrites (A : Matrix (Fin n) (Fin n) K) :
    Overwrites n (csrOperator 0 1 (List.ofFn fun i => List.ofFn (A i)) : Op K E) :=
  implements_overwrites (C95_shipped_operators A).2.1

/-- A symmetric system of two equations, as a CSR matrix. -/
def twoByTwo : Solver ℚ Unit :=
  ⟨csrOperator 0 1 [[2, 1], [1, 2]], identityOperator, relativeResidual (fun v => (v.map fun a => |a|).sum) (1 / 100), none,
    fun v => (v.map fun a => |a|).sum⟩

private theorem twoByTwo_overwrites : Overwrites 2 twoByTwo.operator ∧ Overwrites 2 twoByTwo.preconditioner :=
  ⟨C95_csr_overwrites !![2, 1; 1, 2], (C95_dense_overwrites [[0], [0]] rfl).2⟩

/-- C95: the theorem applies: any workspace, for instance one that was used for a larger system, gives the same two iterations. -/
example (w : Workspace ℚ) : (solveWithGuess twoByTwo 5 w [1, 0] [0, 0]).map Prod.fst = .done ⟨[2 / 3, -1 / 3], 2, .ok ()⟩ := by
  rw [C95_history_independent twoByTwo 5 w Workspace.default [1, 0] [0, 0] twoByTwo_overwrites.1 twoByTwo_overwrites.2]
  decide +kernel

/-- C95: and the solver on vectors exists for it. -/
example : SameSolver 2 twoByTwo
    ⟨Cg.matrixOperator !![2, 1; 1, 2], Cg.identityOperator, Cg.relativeResidual (fun v => |v 0| + |v 1|) (1 / 100), none,
      fun v => |v 0| + |v 1|⟩ :=
  ⟨(C95_shipped_operators !![2, 1; 1, 2]).2.1, (C95_shipped_operators (0 : Matrix (Fin 2) (Fin 2) ℚ)).2.2,
    fun _ _ _ _ _ => by simp [twoByTwo, relativeResidual, Cg.relativeResidual], rfl, fun _ => by simp [twoByTwo]⟩

end Refinement

/-! ## Not with floating-point numbers: a NaN survives in the workspace -/

/-- Rational numbers with a NaN: operations with a NaN give a NaN, division by zero gives a NaN, and comparisons with a NaN are false.
IEEE arithmetic has these rules (for division: `0 / 0`). -/
structure Num where
  val : Option ℚ
deriving DecidableEq

namespace Num
private def lift (f : ℚ → ℚ → ℚ) (a b : Num) : Num := ⟨(a.val.bind fun x => b.val.map fun y => f x y)⟩
instance : Add Num := ⟨lift (· + ·)⟩
instance : Sub Num := ⟨lift (· - ·)⟩
instance : Mul Num := ⟨lift (· * ·)⟩
instance : Div Num := ⟨fun a b => if b.val = some 0 then ⟨none⟩ else lift (· / ·) a b⟩
instance : Zero Num := ⟨⟨some 0⟩⟩
instance : One Num := ⟨⟨some 1⟩⟩
instance : LE Num := ⟨fun a b => (a.val.bind fun x => b.val.map fun y => decide (x ≤ y)) = some true⟩
instance : DecidableLE Num := fun a b =>
  inferInstanceAs (Decidable ((a.val.bind fun x => b.val.map fun y => decide (x ≤ y)) = some true))

/-- The NaN. -/
def nan : Num := ⟨none⟩
/-- The sum of the absolute values. -/
def norm (v : List Num) : Num := (v.map fun a => ⟨a.val.map fun x => |x|⟩).sum
end Num
open Num

/-- The CSR matrix `(1)`, the default preconditioner and the relative residual criterion. -/
def oneByOne (maxIter : Option Nat) : Solver Num Unit :=
  ⟨csrOperator 0 1 [[1]], identityOperator, relativeResidual Num.norm 0, maxIter, Num.norm⟩

private theorem nan_forever (x ap z : Num) (num fuel : Nat) :
    loop (oneByOne none) [1] fuel ⟨[x], ⟨[nan], [z], [nan], [ap]⟩, nan, num⟩ = .running := by
  induction fuel generalizing x ap z num with
  | zero => rfl
  | succ fuel ih => exact ih _ _ _ _

/-- **C95 (finding).** With a NaN the CSR operator does not overwrite its output, because zero times NaN is NaN. A solver for the
system `1 x = 1` that is given a new workspace succeeds with `x = 1`. If the workspace has been used before, with a right-hand side that
contained a NaN, the same call never returns. -/
theorem C95_finding_nan_survives :
    solveEach [(oneByOne (some 1), 2, [nan], [0]), (oneByOne none, 3, [1], [0])] =
        [.done ⟨[nan], 1, .error (.maxIterationsReached 1)⟩, .done ⟨[1], 1, .ok ()⟩] ∧
      ∀ fuel, solveAll Workspace.default [(oneByOne (some 1), 2, [nan], [0]), (oneByOne none, fuel, [1], [0])] =
        [.done ⟨[nan], 1, .error (.maxIterationsReached 1)⟩, .running] := by
  refine ⟨?_, fun fuel => ?_⟩
  · decide +kernel
  · have h1 : solveWithGuess (oneByOne (some 1)) 2 Workspace.default [nan] [0] =
        .done (⟨[nan], 1, .error (.maxIterationsReached 1)⟩, ⟨[nan], [nan], [nan], [nan]⟩) := by decide +kernel
    have h2 : solveWithGuess (oneByOne none) fuel ⟨[nan], [nan], [nan], [nan]⟩ [1] [0] = .running := by
      have hb : (oneByOne none).norm [1] ≠ 0 := by decide +kernel
      have hs : solveWithGuess (oneByOne none) fuel ⟨[nan], [nan], [nan], [nan]⟩ [1] [0] =
          if (oneByOne none).norm [1] = 0 then .done (⟨[0], 0, .ok ()⟩, ⟨[nan], [nan], [nan], [nan]⟩)
          else loop (oneByOne none) [1] fuel ⟨[0], ⟨[nan], [nan], [nan], [nan]⟩, nan, 0⟩ := rfl
      rw [hs, if_neg hb, nan_forever]
    rw [solveAll, h1]
    simp only
    rw [solveAll, h2]

end Fenris.CgBuffers
