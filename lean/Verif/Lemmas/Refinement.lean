import Verif.Model.Refinement
import Mathlib.Data.List.Forall2
/-! # The label table of mesh refinement -/
set_option autoImplicit false
set_option linter.unusedSectionVars false

namespace Fenris
namespace Refine
variable {L κ V : Type} [DecidableEq κ]

/-- The table numbers its entries `0, 1, …` in insertion order and has one entry per key. -/
structure TableInv (key : L → κ) (st : List (L × Nat) × Nat) : Prop where
  idx : st.1.map (·.2) = List.range st.2
  keys : (st.1.map (fun e => key e.1)).Nodup

theorem lookup_some {key : L → κ} {l : L} {m : List (L × Nat)} {i : Nat}
    (h : lookup key l m = some i) : ∃ l0, (l0, i) ∈ m ∧ key l0 = key l := by
  induction m with
  | nil => simp [lookup] at h
  | cons e rest ih =>
    obtain ⟨l', j⟩ := e
    rw [lookup] at h
    split at h
    · rename_i hk
      cases h
      exact ⟨l', by simp, hk⟩
    · obtain ⟨l0, hm, hk⟩ := ih h
      exact ⟨l0, by simp [hm], hk⟩

theorem lookup_none {key : L → κ} {l : L} {m : List (L × Nat)}
    (h : lookup key l m = none) : ∀ e ∈ m, key e.1 ≠ key l := by
  induction m with
  | nil => simp
  | cons e rest ih =>
    obtain ⟨l', j⟩ := e
    rw [lookup] at h
    split at h
    · cases h
    · rename_i hk
      intro e he
      rcases List.mem_cons.1 he with rfl | he
      · exact hk
      · exact ih h e he

theorem internOne_spec {key : L → κ} (l : L) (st : List (L × Nat) × Nat) (h : TableInv key st) :
    TableInv key (internOne key l st).2 ∧
    (∃ l0, (l0, (internOne key l st).1) ∈ (internOne key l st).2.1 ∧ key l0 = key l) ∧
    st.1 <+: (internOne key l st).2.1 ∧
    ∀ e ∈ (internOne key l st).2.1, e ∈ st.1 ∨ e.1 = l := by
  unfold internOne
  cases hl : lookup key l st.1 with
  | some i => exact ⟨h, lookup_some hl, List.prefix_refl _, fun e he => Or.inl he⟩
  | none =>
    refine ⟨⟨?_, ?_⟩, ⟨l, by simp, rfl⟩, ⟨_, rfl⟩, ?_⟩
    · simp [h.idx, List.range_succ]
    · rw [List.map_append, List.nodup_append]
      refine ⟨h.keys, by simp, ?_⟩
      intro a ha b hb hab
      obtain ⟨e, he, rfl⟩ := List.mem_map.1 ha
      simp at hb
      exact lookup_none hl e he (hab.trans hb)
    · intro e he
      rcases List.mem_append.1 he with he | he
      · exact Or.inl he
      · simp at he; exact Or.inr (by rw [he])

/-- `i` is the index of (the key of) `l` in the table. -/
def Idx (key : L → κ) (m : List (L × Nat)) (l : L) (i : Nat) : Prop :=
  ∃ l0, (l0, i) ∈ m ∧ key l0 = key l

theorem Idx.mono {key : L → κ} {m m' : List (L × Nat)} (h : m <+: m') {l : L} {i : Nat}
    (hi : Idx key m l i) : Idx key m' l i := by
  obtain ⟨l0, hm, hk⟩ := hi
  exact ⟨l0, h.subset hm, hk⟩

theorem internCell_spec {key : L → κ} (ls : List L) (st : List (L × Nat) × Nat)
    (h : TableInv key st) :
    TableInv key (internCell key ls st).2 ∧
    List.Forall₂ (Idx key (internCell key ls st).2.1) ls (internCell key ls st).1 ∧
    st.1 <+: (internCell key ls st).2.1 ∧
    ∀ e ∈ (internCell key ls st).2.1, e ∈ st.1 ∨ e.1 ∈ ls := by
  induction ls generalizing st with
  | nil => exact ⟨h, List.Forall₂.nil, List.prefix_refl _, fun e he => Or.inl he⟩
  | cons l ls ih =>
    obtain ⟨h1, h2, h3, h4⟩ := internOne_spec l st h
    obtain ⟨g1, g2, g3, g4⟩ := ih _ h1
    refine ⟨g1, List.Forall₂.cons ?_ g2, h3.trans g3, ?_⟩
    · exact Idx.mono g3 h2
    · intro e he
      rcases g4 e he with he | he
      · rcases h4 e he with he | he
        · exact Or.inl he
        · exact Or.inr (by simp [he])
      · exact Or.inr (by simp [he])

theorem internCells_spec {key : L → κ} (cs : List (List L)) (st : List (L × Nat) × Nat)
    (h : TableInv key st) :
    TableInv key (internCells key cs st).2 ∧
    List.Forall₂ (List.Forall₂ (Idx key (internCells key cs st).2.1)) cs
      (internCells key cs st).1 ∧
    st.1 <+: (internCells key cs st).2.1 ∧
    ∀ e ∈ (internCells key cs st).2.1, e ∈ st.1 ∨ ∃ c ∈ cs, e.1 ∈ c := by
  induction cs generalizing st with
  | nil => exact ⟨h, List.Forall₂.nil, List.prefix_refl _, fun e he => Or.inl he⟩
  | cons c cs ih =>
    obtain ⟨h1, h2, h3, h4⟩ := internCell_spec c st h
    obtain ⟨g1, g2, g3, g4⟩ := ih _ h1
    refine ⟨g1, List.Forall₂.cons (h2.imp (fun _ _ hi => Idx.mono g3 hi)) g2, h3.trans g3, ?_⟩
    intro e he
    rcases g4 e he with he | ⟨c', hc', he⟩
    · rcases h4 e he with he | he
      · exact Or.inl he
      · exact Or.inr ⟨c, by simp, he⟩
    · exact Or.inr ⟨c', by simp [hc'], he⟩

theorem TableInv.nil (key : L → κ) : TableInv key ([], 0) := ⟨by simp, by simp⟩

theorem TableInv.lt {key : L → κ} {st : List (L × Nat) × Nat} (h : TableInv key st)
    {e : L × Nat} (he : e ∈ st.1) : e.2 < st.2 := by
  have : e.2 ∈ st.1.map (·.2) := List.mem_map.2 ⟨e, he, rfl⟩
  rw [h.idx] at this
  exact List.mem_range.1 this

theorem TableInv.nodup {key : L → κ} {st : List (L × Nat) × Nat} (h : TableInv key st) :
    (st.1.map (·.2)).Nodup := by rw [h.idx]; exact List.nodup_range

private theorem nodup_map_inj {α β : Type} {f : α → β} {l : List α} (h : (l.map f).Nodup)
    {a b : α} (ha : a ∈ l) (hb : b ∈ l) (hab : f a = f b) : a = b := by
  induction l with
  | nil => cases ha
  | cons x xs ih =>
    rw [List.map_cons, List.nodup_cons] at h
    rcases List.mem_cons.1 ha with ha1 | ha1 <;> rcases List.mem_cons.1 hb with hb1 | hb1
    · rw [ha1, hb1]
    · subst ha1
      exact absurd (List.mem_map.2 ⟨b, hb1, hab.symm⟩) h.1
    · subst hb1
      exact absurd (List.mem_map.2 ⟨a, ha1, hab⟩) h.1
    · exact ih h.2 ha1 hb1

/-- Two labels get the same index exactly when their keys agree. -/
theorem TableInv.idx_iff {key : L → κ} {st : List (L × Nat) × Nat} (h : TableInv key st)
    {l l' : L} {i i' : Nat} (hi : Idx key st.1 l i) (hi' : Idx key st.1 l' i') :
    i = i' ↔ key l = key l' := by
  obtain ⟨a, ha, hk⟩ := hi
  obtain ⟨b, hb, hk'⟩ := hi'
  constructor
  · rintro rfl
    have := nodup_map_inj h.nodup ha hb rfl
    cases this
    rw [← hk, ← hk']
  · intro hkk
    have := nodup_map_inj (f := fun e : L × Nat => key e.1) h.keys ha hb (by
      show key a = key b
      rw [hk, hk', hkk])
    cases this
    rfl

theorem assignVertices_spec (construct : L → Option V) (es : List (L × Nat)) (vs : List V)
    (hnd : (es.map (·.2)).Nodup) (hlt : ∀ e ∈ es, e.2 < vs.length)
    (hc : ∀ e ∈ es, (construct e.1).isSome) :
    ∃ out, assignVertices construct es vs = some out ∧ out.length = vs.length ∧
      (∀ e ∈ es, out[e.2]? = construct e.1) ∧
      ∀ i, (∀ e ∈ es, e.2 ≠ i) → out[i]? = vs[i]? := by
  induction es generalizing vs with
  | nil => exact ⟨vs, rfl, rfl, by simp, by simp⟩
  | cons e es ih =>
    obtain ⟨l, i⟩ := e
    obtain ⟨v, hv⟩ := Option.isSome_iff_exists.1 (hc (l, i) (by simp))
    have hv : construct l = some v := hv
    have hi : i < vs.length := hlt (l, i) (by simp)
    rw [List.map_cons, List.nodup_cons] at hnd
    obtain ⟨out, h1, h2, h3, h4⟩ := ih (vs.set i v) hnd.2
      (fun e he => by simpa using hlt e (by simp [he])) (fun e he => hc e (by simp [he]))
    refine ⟨out, ?_, ?_, ?_, ?_⟩
    · rw [assignVertices, hv]; simp only [hi, if_true]; exact h1
    · simpa using h2
    · intro e he
      rcases List.mem_cons.1 he with rfl | he
      · show out[i]? = construct l
        rw [h4 i (fun e he heq => hnd.1 (List.mem_map.2 ⟨e, he, heq⟩)), hv]
        simp [hi]
      · exact h3 e he
    · intro j hj
      rw [h4 j (fun e he => hj e (by simp [he]))]
      have : i ≠ j := hj (l, i) (by simp)
      simp [this]

/-- The result of `refine_mesh`, for any iteration order of the hash map. -/
theorem refineMesh_spec {key : L → κ} {children : List Nat → Option (List (List L))}
    {construct : List V → L → Option V} {ord : List (L × Nat) → List (L × Nat)} {dflt : V}
    {mesh : Mesh V} (hord : ∀ m, (ord m).Perm m)
    (hch : ∀ c ∈ mesh.cells, ∃ ch, children c = some ch ∧
      ∀ ls ∈ ch, ∀ l ∈ ls, (construct mesh.vertices l).isSome)
    (hcongr : ∀ l l', key l = key l' → construct mesh.vertices l = construct mesh.vertices l') :
    ∃ (out : Mesh V) (chs : List (List (List L))), refineMesh key children construct ord dflt mesh = some out ∧
      List.Forall₂ (fun c ch => children c = some ch) mesh.cells chs ∧
      (∃ m : List (L × Nat) × Nat, TableInv key m ∧ m.2 = out.vertices.length ∧
        List.Forall₂ (List.Forall₂ (Idx key m.1)) chs.flatten out.cells ∧
        (∀ l i, Idx key m.1 l i → out.vertices[i]? = construct mesh.vertices l) ∧
        ∀ e ∈ m.1, ∃ ls ∈ chs.flatten, e.1 ∈ ls) := by
  have hall : ∀ cs : List (List Nat), (∀ c ∈ cs, ∃ ch, children c = some ch ∧
      ∀ ls ∈ ch, ∀ l ∈ ls, (construct mesh.vertices l).isSome) →
      ∃ chs, cs.mapM children = some chs ∧ List.Forall₂ (fun c ch => children c = some ch) cs chs ∧
        ∀ ls ∈ chs.flatten, ∀ l ∈ ls, (construct mesh.vertices l).isSome := by
    intro cs
    induction cs with
    | nil => intro _; exact ⟨[], rfl, List.Forall₂.nil, by simp⟩
    | cons c cs ih =>
      intro h
      obtain ⟨ch, h1, h2⟩ := h c (by simp)
      obtain ⟨chs, g1, g2, g3⟩ := ih (fun c hc => h c (by simp [hc]))
      refine ⟨ch :: chs, by simp [List.mapM_cons, h1, g1], List.Forall₂.cons h1 g2, ?_⟩
      intro ls hls
      rw [List.flatten_cons, List.mem_append] at hls
      rcases hls with hls | hls
      · exact h2 ls hls
      · exact g3 ls hls
  obtain ⟨chs, h1, h2, h3⟩ := hall mesh.cells hch
  obtain ⟨s1, s2, _, s4⟩ := internCells_spec (key := key) chs.flatten ([], 0) (TableInv.nil key)
  have s4' : ∀ e ∈ (internCells key chs.flatten ([], 0)).2.1, ∃ ls ∈ chs.flatten, e.1 ∈ ls := by
    intro e he
    rcases s4 e he with h | h
    · cases h
    · exact h
  obtain ⟨out, a1, a2, a3, _⟩ := assignVertices_spec (construct mesh.vertices)
    (ord (internCells key chs.flatten ([], 0)).2.1)
    (List.replicate (internCells key chs.flatten ([], 0)).2.2 dflt)
    (((hord _).map _).nodup_iff.2 s1.nodup)
    (fun e he => by
      have := s1.lt ((hord _).mem_iff.1 he)
      simpa using this)
    (fun e he => by
      obtain ⟨ls, hls, hl⟩ := s4' e ((hord _).mem_iff.1 he)
      exact h3 ls hls e.1 hl)
  refine ⟨⟨out, _⟩, chs, ?_, h2, _, s1, ?_, s2, ?_, s4'⟩
  · unfold refineMesh; rw [h1]; simp only; rw [a1]
  · simpa using a2.symm
  · rintro l i ⟨l0, hm, hk⟩
    show out[i]? = _
    rw [a3 (l0, i) ((hord _).mem_iff.2 hm)]
    exact hcongr _ _ hk

end Refine
end Fenris
