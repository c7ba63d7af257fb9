import Verif.Spec.Workspace
import Mathlib.Data.List.Nodup
import Mathlib.Data.List.Perm.Basic
import Mathlib.Data.List.Perm.Subperm
/-! # C76: workspaces are maps from types to values -/
set_option autoImplicit false

namespace Fenris.Workspace
open Spec

variable {ι : Type} [DecidableEq ι] {W : ι → Type}

private theorem rposition_none (t : ι) (ws : List (Σ t, W t)) :
    rposition t ws = none ↔ ∀ e ∈ ws, e.1 ≠ t := by
  induction ws with
  | nil => simp [rposition]
  | cons e es ih =>
    rw [rposition]
    cases h : rposition t es with
    | some i =>
      simp only [reduceCtorEq, List.mem_cons, forall_eq_or_imp, false_iff, not_and]
      intro _ hf
      rw [ih.mpr hf] at h
      exact absurd h (by simp)
    | none =>
      have := ih.mp h
      by_cases he : e.1 = t
      · simp [he]
      · simpa [he] using this

private theorem rposition_some (t : ι) (ws : List (Σ t, W t)) (i : Nat) (h : rposition t ws = some i) :
    ∃ w : W t, ws[i]? = some ⟨t, w⟩ := by
  induction ws generalizing i with
  | nil => simp [rposition] at h
  | cons e es ih =>
    rw [rposition] at h
    cases h1 : rposition t es with
    | some j =>
      rw [h1] at h
      simp only [Option.some.injEq] at h
      obtain ⟨w, hw⟩ := ih j h1
      exact ⟨w, by rw [← h]; simpa using hw⟩
    | none =>
      rw [h1] at h
      by_cases he : e.1 = t
      · simp only [he, if_true, Option.some.injEq] at h
        subst h
        subst he
        exact ⟨e.2, rfl⟩
      · simp [he] at h

private theorem swap_last {A : Type} (l : List A) (i : Nat) (a : A) (h : l[i]? = some a) :
    ∃ l' : List A, swap l i (l.length - 1) = some (l' ++ [a]) ∧ (l' ++ [a]).Perm l ∧ l'.length + 1 = l.length := by
  have hi : i < l.length := by
    by_contra hc
    rw [List.getElem?_eq_none (by omega)] at h
    exact absurd h (by simp)
  obtain ⟨ys, b, rfl⟩ : ∃ ys b, l = ys ++ [b] := by
    rcases List.eq_nil_or_concat l with rfl | ⟨ys, b, rfl⟩
    · simp at hi
    · exact ⟨ys, b, by simp⟩
  have hlast : (ys ++ [b])[(ys ++ [b]).length - 1]? = some b := by simp
  simp only [List.length_append, List.length_singleton] at hi
  by_cases hlt : i < ys.length
  · refine ⟨ys.set i b, ?_, ?_, by simp⟩
    · rw [swap, h, hlast]
      simp only [Option.bind_some, Option.map_some, Option.some.injEq]
      rw [List.set_append_left _ _ hlt]
      rw [List.set_append_right _ _ (by simp)]
      simp
    · have ha : ys[i] = a := by
        rw [List.getElem?_append_left hlt, List.getElem?_eq_getElem hlt] at h
        simpa using h
      have h1 : ys = ys.take i ++ a :: ys.drop (i + 1) := by
        rw [← ha]; simp
      have h2 : ys.set i b = ys.take i ++ b :: ys.drop (i + 1) := List.set_eq_take_append_cons_drop .. |>.trans (by simp [hlt])
      rw [h2]
      conv_rhs => rw [h1]
      simp only [List.append_assoc, List.cons_append]
      refine List.Perm.append_left _ ?_
      refine (List.perm_middle (l₁ := b :: ys.drop (i + 1)) (l₂ := []) (a := a)).trans ?_
      simp only [List.append_nil]
      refine List.Perm.cons _ ?_
      exact (List.perm_append_singleton b _).symm
  · have hie : i = ys.length := by omega
    subst hie
    have hab : a = b := by simpa using h.symm
    subst hab
    refine ⟨ys, ?_, List.Perm.refl _, by simp⟩
    rw [swap, h, hlast]
    simp

private theorem holds_perm {ws ws' : Workspace W} {s : Store W} (h : Holds ws s) (hp : ws'.Perm ws) : Holds ws' s :=
  ⟨(hp.map _).nodup_iff.mpr h.1, fun t w => hp.mem_iff.trans (h.2 t w)⟩

private theorem holds_replace {l : Workspace W} {t : ι} {w w' : W t} {s : Store W} (h : Holds (l ++ [⟨t, w⟩]) s) :
    Holds (l ++ [⟨t, w'⟩]) (Function.update s t (some w')) := by
  have hn : (l.map Sigma.fst).Nodup ∧ t ∉ l.map Sigma.fst := by
    have := h.1
    rw [List.map_append, List.nodup_append] at this
    refine ⟨this.1, fun hm => ?_⟩
    exact this.2.2 t hm t (by simp) rfl
  refine ⟨by simpa using h.1, ?_⟩
  intro t' v
  by_cases ht : t' = t
  · subst ht
    simp only [List.mem_append, List.mem_singleton, Function.update_self, Option.some.injEq]
    constructor
    · rintro (hm | hm)
      · exact absurd (List.mem_map_of_mem (f := Sigma.fst) hm) hn.2
      · exact (eq_of_heq (Sigma.mk.inj hm).2).symm
    · rintro rfl
      exact .inr rfl
  · rw [Function.update_of_ne ht, ← h.2 t' v]
    simp only [List.mem_append, List.mem_singleton]
    constructor
    · rintro (hm | hm)
      · exact .inl hm
      · exact absurd (Sigma.mk.inj hm).1 ht
    · rintro (hm | hm)
      · exact .inl hm
      · exact absurd (Sigma.mk.inj hm).1 ht

private theorem downcast_self (t : ι) (w : W t) : downcast t (⟨t, w⟩ : Σ t, W t) = some w := by simp [downcast]

/-- C76: an access never panics.  It creates a value exactly if there is none of the type, it hands out the value of the type,
and it changes no value of another type. -/
theorem C76_access {R : Type} (ws : Workspace W) (s : Store W) (hs : Holds ws s) (t : ι) (create : Unit → W t)
    (f : W t → W t × R) :
    ∃ ws', getOrInsertWith ws t create f = some (ws', (access s t create f).2) ∧ Holds ws' (access s t create f).1 := by
  cases hr : rposition t ws with
  | some i =>
    obtain ⟨w, hw⟩ := rposition_some t ws i hr
    have hsw : s t = some w := (hs.2 t w).mp (List.mem_of_getElem? hw)
    obtain ⟨l, h1, h2, h3⟩ := swap_last ws i _ hw
    refine ⟨l ++ [⟨t, (f w).1⟩], ?_, ?_⟩
    · have h4 : ws.length - 1 = l.length := by omega
      simp only [getOrInsertWith, hr, Option.getD_some, Option.isSome_some, if_true, Option.isNone_some]
      rw [h1, h4]
      simp [downcast_self, access, hsw]
    · simp only [access, hsw, Option.getD_some]
      exact holds_replace (holds_perm hs h2)
  | none =>
    have hno := (rposition_none t ws).mp hr
    have hsn : s t = none := by
      by_contra hc
      obtain ⟨w, hw⟩ := Option.ne_none_iff_exists'.mp hc
      exact hno _ ((hs.2 t w).mpr hw) rfl
    have hg : (ws ++ [⟨t, create ()⟩])[ws.length]? = some ⟨t, create ()⟩ := by simp
    obtain ⟨l, h1, h2, h3⟩ := swap_last (ws ++ [⟨t, create ()⟩]) ws.length _ hg
    refine ⟨l ++ [⟨t, (f (create ())).1⟩], ?_, ?_⟩
    · have h4 : (ws ++ [(⟨t, create ()⟩ : Σ t, W t)]).length - 1 = l.length := by omega
      simp only [getOrInsertWith, hr, Option.getD_none, Option.isSome_none, Bool.false_eq_true, if_false, Option.isNone_none]
      rw [h1, h4]
      simp [downcast_self, access, hsn]
    · simp only [access, hsn, Option.getD_none]
      have hH : Holds (ws ++ [⟨t, create ()⟩]) (Function.update s t (some (create ()))) := by
        refine ⟨?_, ?_⟩
        · rw [List.map_append, List.nodup_append]
          refine ⟨hs.1, by simp, ?_⟩
          intro a ha b hb hab
          simp only [List.map_cons, List.map_nil, List.mem_singleton] at hb
          obtain ⟨e, he, rfl⟩ := List.mem_map.mp ha
          exact hno e he (hab.trans hb)
        · intro t' v
          by_cases ht : t' = t
          · subst ht
            simp only [List.mem_append, List.mem_singleton, Function.update_self, Option.some.injEq]
            constructor
            · rintro (hm | hm)
              · exact absurd rfl (hno _ hm)
              · exact (eq_of_heq (Sigma.mk.inj hm).2).symm
            · rintro rfl
              exact .inr rfl
          · rw [Function.update_of_ne ht, ← hs.2 t' v]
            simp only [List.mem_append, List.mem_singleton, or_iff_left_iff_imp]
            intro hm
            exact absurd (Sigma.mk.inj hm).1 ht
      have := holds_replace (w' := (f (create ())).1) (holds_perm hH h2)
      rwa [Function.update_idem] at this

/-- C76: in any history of accesses to a new workspace no access panics, and the results are those of a map from types to
values; a value is created on the first access with its type only. -/
theorem C76_history {R : Type} (as : List (Access W R)) :
    results ([] : Workspace W) as = some (history (fun _ => none) as) := by
  suffices h : ∀ (ws : Workspace W) (s : Store W), Holds ws s → results ws as = some (history s as) from
    h [] _ ⟨by simp, by simp⟩
  induction as with
  | nil => intro ws s _; rfl
  | cons a as ih =>
    intro ws s hs
    obtain ⟨ws', h1, h2⟩ := C76_access ws s hs a.t a.create a.f
    rw [results, h1, Option.bind_some, ih ws' _ h2]
    rfl

/-- C76: after any access the entry of the type is the last one, and an access with the same type leaves the order of the
entries as it is. -/
theorem C76_last {R : Type} (ws ws' : Workspace W) (t : ι) (create : Unit → W t) (f : W t → W t × R) (r : R × Bool)
    (h : getOrInsertWith ws t create f = some (ws', r)) :
    ∃ l w, ws' = l ++ [⟨t, w⟩] ∧
      ∀ (create' : Unit → W t) (f' : W t → W t × R),
        getOrInsertWith ws' t create' f' = some (l ++ [⟨t, (f' w).1⟩], (f' w).2, false) := by
  obtain ⟨l, w, hl⟩ : ∃ l w, ws' = l ++ [(⟨t, w⟩ : Σ t, W t)] := by
    simp only [getOrInsertWith] at h
    cases hr : rposition t ws with
    | some i =>
      obtain ⟨w, hw⟩ := rposition_some t ws i hr
      obtain ⟨l, h1, h2, h3⟩ := swap_last ws i _ hw
      have h4 : ws.length - 1 = l.length := by omega
      simp only [hr, Option.getD_some, Option.isSome_some, if_true, Option.isNone_some] at h
      rw [h1, h4] at h
      simp only [Option.bind_some, List.getElem?_concat_length, downcast_self, Option.map_some, Option.some.injEq,
        Prod.mk.injEq] at h
      exact ⟨l, (f w).1, by rw [← h.1]; simp⟩
    | none =>
      have hg : (ws ++ [⟨t, create ()⟩])[ws.length]? = some (⟨t, create ()⟩ : Σ t, W t) := by simp
      obtain ⟨l, h1, h2, h3⟩ := swap_last (ws ++ [⟨t, create ()⟩]) ws.length _ hg
      have h4 : (ws ++ [(⟨t, create ()⟩ : Σ t, W t)]).length - 1 = l.length := by omega
      simp only [hr, Option.getD_none, Option.isSome_none, Bool.false_eq_true, if_false, Option.isNone_none] at h
      rw [h1, h4] at h
      simp only [Option.bind_some, List.getElem?_concat_length, downcast_self, Option.map_some, Option.some.injEq,
        Prod.mk.injEq] at h
      exact ⟨l, (f (create ())).1, by rw [← h.1]; simp⟩
  refine ⟨l, w, hl, ?_⟩
  intro create' f'
  have hpos : ∀ l' : Workspace W, rposition t (l' ++ [⟨t, w⟩]) = some l'.length := by
    intro l'
    induction l' with
    | nil => simp [rposition]
    | cons e es ih => rw [List.cons_append, rposition, ih]; rfl
  rw [hl, getOrInsertWith]
  simp only [hpos l, Option.getD_some, Option.isSome_some, if_true, Option.isNone_some]
  simp [swap, downcast_self]

/-- C76, thread-local workspaces: a program panics exactly if it uses a workspace while the same workspace is borrowed. -/
theorem C76_reentry (p : Prog W) :
    (run p ⟨fun _ => [], fun _ => false⟩).isSome ↔ NoReentry p [] := by
  suffices h : ∀ (p : Prog W) (st : Thread W) (ks : List Nat) (s : Nat → Store W), (∀ k, st.borrowed k = true ↔ k ∈ ks) →
      (∀ k, Holds (st.ws k) (s k)) →
      ((run p st).isSome ↔ NoReentry p ks) ∧
        ∀ st', run p st = some st' → (∀ k, st'.borrowed k = true ↔ k ∈ ks) ∧ ∃ s' : Nat → Store W, ∀ k, Holds (st'.ws k) (s' k) from
    (h p _ [] (fun _ _ => none) (by simp) (fun k => ⟨by simp, by simp⟩)).1
  intro p
  induction p with
  | done =>
    intro st ks s hb hs
    refine ⟨by simp [run, NoReentry], ?_⟩
    intro st' h
    simp only [run, Option.some.injEq] at h
    subst h
    exact ⟨hb, s, hs⟩
  | use key t dflt f inner next ih1 ih2 =>
    intro st ks s hb hs
    rw [run, NoReentry]
    by_cases hk : key ∈ ks
    · rw [if_pos ((hb key).mpr hk)]
      simp [hk]
    · rw [if_neg (fun hc => hk ((hb key).mp hc))]
      obtain ⟨ws', h1, h2⟩ := C76_access (st.ws key) (s key) (hs key) t (fun _ => dflt) (fun w => (f w, ()))
      rw [h1, Option.bind_some]
      have hb1 : ∀ k, setKey st.borrowed key true k = true ↔ k ∈ key :: ks := by
        intro k
        by_cases hkk : k = key
        · simp [setKey, hkk]
        · simp [setKey, hkk, hb k]
      obtain ⟨h3, h4⟩ := ih1 ⟨setKey st.ws key ws', setKey st.borrowed key true⟩ (key :: ks)
        (setKey s key (access (s key) t (fun _ => dflt) (fun w => (f w, ()))).1) hb1 (by
          intro k
          by_cases hkk : k = key
          · subst hkk; simpa [setKey] using h2
          · simpa [setKey, hkk] using hs k)
      cases hr : run inner ⟨setKey st.ws key ws', setKey st.borrowed key true⟩ with
      | none =>
        rw [hr] at h3
        simp only [Option.isSome_none, Bool.false_eq_true, false_iff] at h3
        simp [h3]
      | some st1 =>
        rw [hr] at h3
        simp only [Option.isSome_some, true_iff] at h3
        obtain ⟨h5, s1, h6⟩ := h4 st1 hr
        have hb2 : ∀ k, setKey st1.borrowed key false k = true ↔ k ∈ ks := by
          intro k
          by_cases hkk : k = key
          · simp [setKey, hkk, hk]
          · have := h5 k
            simp only [List.mem_cons, hkk, false_or] at this
            simpa [setKey, hkk] using this
        obtain ⟨h7, h8⟩ := ih2 ⟨st1.ws, setKey st1.borrowed key false⟩ ks s1 hb2 h6
        rw [Option.bind_some]
        refine ⟨by rw [h7]; simp [hk, h3], h8⟩

/-- C76, thread-local workspaces: a program without reentry changes the values as if every workspace were a map from types to
values. -/
theorem C76_thread_local (p : Prog W) (hp : NoReentry p []) :
    ∃ st, run p ⟨fun _ => [], fun _ => false⟩ = some st ∧ (∀ k, st.borrowed k = false) ∧
      ∀ k, Holds (st.ws k) (effect p (fun _ _ => none) k) := by
  suffices h : ∀ (p : Prog W) (st : Thread W) (ks : List Nat) (s : Nat → Store W), (∀ k, st.borrowed k = true ↔ k ∈ ks) →
      (∀ k, Holds (st.ws k) (s k)) → NoReentry p ks →
      ∃ st', run p st = some st' ∧ (∀ k, st'.borrowed k = true ↔ k ∈ ks) ∧ ∀ k, Holds (st'.ws k) (effect p s k) by
    obtain ⟨st, h1, h2, h3⟩ := h p ⟨fun _ => [], fun _ => false⟩ [] (fun _ _ => none) (by simp) (fun k => ⟨by simp, by simp⟩) hp
    exact ⟨st, h1, fun k => by simpa using h2 k, h3⟩
  clear hp p
  intro p
  induction p with
  | done =>
    intro st ks s hb hs _
    exact ⟨st, rfl, hb, hs⟩
  | use key t dflt f inner next ih1 ih2 =>
    intro st ks s hb hs hp
    rw [NoReentry] at hp
    obtain ⟨hk, hp1, hp2⟩ := hp
    rw [run, if_neg (fun hc => hk ((hb key).mp hc))]
    obtain ⟨ws', h1, h2⟩ := C76_access (st.ws key) (s key) (hs key) t (fun _ => dflt) (fun w => (f w, ()))
    rw [h1, Option.bind_some]
    have hb1 : ∀ k, setKey st.borrowed key true k = true ↔ k ∈ key :: ks := by
      intro k
      by_cases hkk : k = key
      · simp [setKey, hkk]
      · simp [setKey, hkk, hb k]
    obtain ⟨st1, h3, h5, h6⟩ := ih1 ⟨setKey st.ws key ws', setKey st.borrowed key true⟩ (key :: ks)
      (setKey s key (access (s key) t (fun _ => dflt) (fun w => (f w, ()))).1) hb1 (by
        intro k
        by_cases hkk : k = key
        · subst hkk; simpa [setKey] using h2
        · simpa [setKey, hkk] using hs k) hp1
    rw [h3, Option.bind_some]
    have hb2 : ∀ k, setKey st1.borrowed key false k = true ↔ k ∈ ks := by
      intro k
      by_cases hkk : k = key
      · simp [setKey, hkk, hk]
      · have := h5 k
        simp only [List.mem_cons, hkk, false_or] at this
        simpa [setKey, hkk] using this
    obtain ⟨st2, h7, h8, h9⟩ := ih2 ⟨st1.ws, setKey st1.borrowed key false⟩ ks _ hb2 h6 hp2
    exact ⟨st2, h7, h8, h9⟩

/-- Two types, the numbers and the lists. -/
private def exW : Bool → Type
  | false => Nat
  | true => List Nat

private def addNat (n : Nat) : Access exW Nat := ⟨false, fun _ => (10 : Nat), fun (w : Nat) => ((w + n : Nat), w)⟩
private def pushList (n : Nat) : Access exW Nat := ⟨true, fun _ => ([] : List Nat), fun (w : List Nat) => (n :: w, w.length)⟩

/-- Two interleaved counters: every value is created once and survives the use of the other type. -/
example : results [] [addNat 1, pushList 7, addNat 5, pushList 8, addNat 0] =
    some [(10, true), (0, true), (11, false), (1, false), (16, false)] := by decide

/-- A store that is held by a workspace. -/
example : Holds ([⟨false, (3 : Nat)⟩] : Workspace exW) (fun t => match t with | false => some (3 : Nat) | true => none) := by
  refine ⟨by simp, ?_⟩
  intro t w
  cases t
  · rw [List.mem_singleton]
    constructor
    · intro h
      rw [eq_of_heq (Sigma.mk.inj h).2]
    · intro h
      rw [Option.some.inj h]
  · rw [List.mem_singleton]
    constructor
    · intro h
      exact absurd (Sigma.mk.inj h).1 (by decide)
    · intro h
      exact absurd h (by simp)

/-- Nested use of two workspaces is fine, nested use of one workspace panics. -/
example : NoReentry (.use 0 false (0 : Nat) (fun w => w) (.use 1 false (0 : Nat) (fun w => w) .done .done) .done : Prog exW) [] ∧
    ¬ NoReentry (.use 0 false (0 : Nat) (fun w => w) (.use 0 true ([] : List Nat) (fun w => w) .done .done) .done : Prog exW) [] := by
  simp [NoReentry]

end Fenris.Workspace
