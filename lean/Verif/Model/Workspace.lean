import Verif.Model.Basic
/-! # Model of `src/workspace.rs`

Types are the elements of a type `ι` with decidable equality (`TypeId`), and `W t` holds the values of the type `t`. -/
set_option autoImplicit false

namespace Fenris
namespace Workspace

variable {ι : Type} [DecidableEq ι] {W : ι → Type}

/-- src/workspace.rs:11-14 `Workspace`: the entries are type-erased. -/
abbrev Workspace (W : ι → Type) := List (Σ t, W t)

/-- `Iterator::rposition` in src/workspace.rs:23: the last index of an entry of the type `t`. -/
def rposition (t : ι) : List (Σ t, W t) → Option Nat
  | [] => none
  | e :: es => match rposition t es with
    | some i => some (i + 1)
    | none => if e.1 = t then some 0 else none

/-- `slice::swap`; `none` is a panic. -/
def swap {A : Type} (l : List A) (i j : Nat) : Option (List A) :=
  l[i]?.bind fun a => l[j]?.map fun b => (l.set i b).set j a

/-- `downcast_mut().expect(..)` in src/workspace.rs:40-43; `none` is a panic. -/
def downcast (t : ι) (e : Σ t, W t) : Option (W t) := if h : e.1 = t then some (h ▸ e.2) else none

/-- src/workspace.rs:17-44 `get_or_insert_with`, followed by a use of the returned reference: `f` maps the value behind it to
its new value and a result.  The third component tells whether `create` was called. -/
def getOrInsertWith {R : Type} (ws : Workspace W) (t : ι) (create : Unit → W t) (f : W t → W t × R) :
    Option (Workspace W × R × Bool) :=
  let found := rposition t ws
  let idx := found.getD ws.length
  let ws1 : Workspace W := if found.isSome then ws else ws ++ [⟨t, create ()⟩]
  let last := ws1.length - 1
  (swap ws1 idx last).bind fun ws2 =>
    ws2[last]?.bind fun entry =>
      (downcast t entry).map fun w =>
        (ws2.set last ⟨t, (f w).1⟩, (f w).2, found.isNone)

/-! ## Thread-local workspaces -/

/-- The part of a program that works with thread-local workspaces (src/workspace.rs:86-97 `with_thread_local_workspace`):
`use key t dflt f inner next` borrows the workspace `key` with the type `t`, changes the value with `f`, runs `inner` while the
borrow is alive, and continues with `next`. -/
inductive Prog (W : ι → Type)
  | done
  | use (key : Nat) (t : ι) (dflt : W t) (f : W t → W t) (inner next : Prog W)

/-- The state of one thread: a workspace and the borrow flag of its `RefCell` for every key. -/
structure Thread (W : ι → Type) where
  ws : Nat → Workspace W
  borrowed : Nat → Bool

/-- Updates one key. -/
def setKey {A : Type} (g : Nat → A) (k : Nat) (a : A) : Nat → A := fun i => if i = k then a else g i

/-- `with_thread_local_workspace` (src/workspace.rs:86-97): `RefCell::borrow_mut` panics if the workspace is already borrowed; the
borrow ends with the closure. -/
def run : Prog W → Thread W → Option (Thread W)
  | .done, st => some st
  | .use key t dflt f inner next, st =>
    if st.borrowed key then none
    else (getOrInsertWith (st.ws key) t (fun _ => dflt) fun w => (f w, ())).bind fun r =>
      (run inner ⟨setKey st.ws key r.1, setKey st.borrowed key true⟩).bind fun st' =>
        run next ⟨st'.ws, setKey st'.borrowed key false⟩

end Workspace
end Fenris
