import Verif.Lemmas.Disjoint
set_option autoImplicit false

namespace Fenris
open DisjointSubsets

variable {σ α : Type}

/-- Outcome of one worker's step as seen from its own private state and the storage. -/
inductive Act (σ α : Type) where
  | idle
  | die
  | upd (g : Nat) (f : α → σ × α)

/-- What worker `k` wants to do next. -/
def actOf (subsets : List (List Nat)) (w : Nat → Worker σ α) (k : Nat)
    (loc : Option (Option σ)) : Act σ α :=
  match loc, subsets[k]? with
  | some (some s), some sub =>
    match (w k).next s with
    | none => .idle
    | some (l, f) =>
      match sub[l]? with
      | none => .die
      | some g => .upd g f
  | _, _ => .idle

def applyAct (st : ParState σ α) (k : Nat) : Act σ α → Option (ParState σ α)
  | .idle => some st
  | .die => some { st with locals := st.locals.set k none }
  | .upd g f =>
    match st.storage[g]? with
    | none => none
    | some v => some ⟨st.storage.set g (f v).2, st.locals.set k (some (f v).1)⟩

theorem step_eq_act (subsets : List (List Nat)) (w : Nat → Worker σ α) (st : ParState σ α)
    (k : Nat) : st.step subsets w k = applyAct st k (actOf subsets w k st.locals[k]?) := by
  unfold ParState.step actOf
  cases h1 : st.locals[k]? with
  | none => rfl
  | some o =>
    cases o with
    | none => rfl
    | some s =>
      cases h2 : subsets[k]? with
      | none => rfl
      | some sub =>
        simp only
        cases h3 : (w k).next s with
        | none => rfl
        | some p =>
          obtain ⟨l, f⟩ := p
          simp only
          cases h4 : sub[l]? <;> rfl

theorem actOf_upd_mem {subsets : List (List Nat)} {w : Nat → Worker σ α} {k : Nat}
    {loc : Option (Option σ)} {g : Nat} {f : α → σ × α} (h : actOf subsets w k loc = .upd g f) :
    ∃ s, subsets[k]? = some s ∧ g ∈ s := by
  unfold actOf at h
  split at h
  · rename_i h2
    split at h
    · cases h
    · split at h
      · cases h
      · rename_i h4
        cases h
        exact ⟨_, h2, List.mem_of_getElem? h4⟩
  · cases h

theorem locals_of_applyAct {st st' : ParState σ α} {k : Nat} {a : Act σ α}
    (h : applyAct st k a = some st') (j : Nat) (hj : j ≠ k) : st'.locals[j]? = st.locals[j]? := by
  cases a with
  | idle => cases h; rfl
  | die => cases h; simp [List.getElem?_set_ne (Ne.symm hj)]
  | upd g f =>
    unfold applyAct at h
    simp only at h
    split at h
    · cases h
    · cases h; simp [List.getElem?_set_ne (Ne.symm hj)]

theorem step_comm (subsets : List (List Nat)) (hd : Spec.DisjointFamily subsets)
    (w : Nat → Worker σ α) (st : ParState σ α) (j k : Nat) :
    (st.step subsets w j).bind (fun s => s.step subsets w k) =
    (st.step subsets w k).bind (fun s => s.step subsets w j) := by
  by_cases hjk : j = k
  · subst hjk; rfl
  · have hkj : k ≠ j := Ne.symm hjk
    have key : ∀ (j k : Nat), j ≠ k → (st.step subsets w j).bind (fun s => s.step subsets w k) =
        (applyAct st j (actOf subsets w j st.locals[j]?)).bind
          (fun s => applyAct s k (actOf subsets w k st.locals[k]?)) := by
      intro j k hjk
      rw [step_eq_act]
      cases h : applyAct st j (actOf subsets w j st.locals[j]?) with
      | none => rfl
      | some s =>
        simp only [Option.bind_some]
        rw [step_eq_act, locals_of_applyAct h k (Ne.symm hjk)]
    rw [key j k hjk, key k j hkj]
    cases h1 : actOf subsets w j st.locals[j]? with
    | idle =>
      generalize actOf subsets w k st.locals[k]? = a
      show applyAct st k a = (applyAct st k a).bind some
      cases applyAct st k a <;> rfl
    | die =>
      cases h2 : actOf subsets w k st.locals[k]? with
      | idle => simp [applyAct]
      | die => simp [applyAct, List.set_comm _ _ hjk]
      | upd g f =>
        simp only [applyAct, Option.bind_some]
        cases st.storage[g]? with
        | none => rfl
        | some v => simp [List.set_comm _ _ hjk]
    | upd g f =>
      cases h2 : actOf subsets w k st.locals[k]? with
      | idle => simp only [applyAct, Option.bind_some]; cases st.storage[g]? <;> rfl
      | die =>
        simp only [applyAct, Option.bind_some]
        cases st.storage[g]? with
        | none => rfl
        | some v => simp [List.set_comm _ _ hjk]
      | upd g' f' =>
        obtain ⟨s, hs, hg⟩ := actOf_upd_mem h1
        obtain ⟨s', hs', hg'⟩ := actOf_upd_mem h2
        have hgg : g ≠ g' := by
          rintro rfl
          exact hd j k s s' hjk hs hs' g hg hg'
        simp only [applyAct]
        cases hv : st.storage[g]? with
        | none =>
          cases hv' : st.storage[g']? with
          | none => rfl
          | some v' =>
            simp [List.getElem?_set_ne (Ne.symm hgg), hv]
        | some v =>
          cases hv' : st.storage[g']? with
          | none => simp [List.getElem?_set_ne hgg, hv']
          | some v' =>
            simp [List.getElem?_set_ne hgg, List.getElem?_set_ne (Ne.symm hgg), hv, hv',
              List.set_comm _ _ hjk, List.set_comm _ _ hgg]

theorem exec_perm (subsets : List (List Nat)) (hd : Spec.DisjointFamily subsets)
    (w : Nat → Worker σ α) {s₁ s₂ : List Nat} (h : s₁.Perm s₂) :
    ∀ st : ParState σ α, st.exec subsets w s₁ = st.exec subsets w s₂ := by
  unfold ParState.exec
  induction h with
  | nil => intro st; rfl
  | cons x _ ih =>
    intro st
    simp only [List.foldlM_cons]
    congr 1; funext s; exact ih s
  | swap x y l =>
    intro st
    simp only [List.foldlM_cons]
    have := step_comm subsets hd w st x y
    simp only [Option.bind_eq_bind] at *
    rw [← Option.bind_assoc, ← Option.bind_assoc, this]
  | trans _ _ ih1 ih2 => intro st; rw [ih1, ih2]

theorem step_safe (subsets : List (List Nat)) (w : Nat → Worker σ α) (st : ParState σ α) (k : Nat)
    (hb : ∀ s ∈ subsets, ∀ x ∈ s, x < st.storage.length) :
    ∃ st', st.step subsets w k = some st' ∧ st'.storage.length = st.storage.length := by
  rw [step_eq_act]
  cases h : actOf subsets w k st.locals[k]? with
  | idle => exact ⟨_, rfl, rfl⟩
  | die => exact ⟨_, rfl, rfl⟩
  | upd g f =>
    obtain ⟨s, hs, hg⟩ := actOf_upd_mem h
    have := hb s (List.mem_of_getElem? hs) g hg
    simp [applyAct, List.getElem?_eq_getElem this]

theorem exec_safe (subsets : List (List Nat)) (w : Nat → Worker σ α) (st : ParState σ α)
    (hb : ∀ s ∈ subsets, ∀ x ∈ s, x < st.storage.length) (sched : List Nat) :
    ∃ st', st.exec subsets w sched = some st' ∧ st'.storage.length = st.storage.length := by
  induction sched generalizing st with
  | nil => exact ⟨st, rfl, rfl⟩
  | cons k l ih =>
    obtain ⟨st1, h1, h2⟩ := step_safe subsets w st k hb
    obtain ⟨st2, h3, h4⟩ := ih st1 (by simpa [h2] using hb)
    refine ⟨st2, ?_, by omega⟩
    simp only [ParState.exec, List.foldlM_cons, h1, Option.bind_eq_bind, Option.bind_some]
    exact h3

end Fenris
