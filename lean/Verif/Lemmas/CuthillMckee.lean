import Verif.Lemmas.Permutation
import Verif.Spec.Graph
/-! Helper lemmas for C12 (Cuthill–McKee). -/
set_option autoImplicit false

namespace Fenris
namespace CuthillMcKee
open Spec

theorem visitAdjacent_spec (adj : List Nat) (vis : List Bool) (queue : List Nat)
    (hb : ∀ a ∈ adj, a < vis.length) :
    ∃ vis' new, visitAdjacent adj vis queue = some (vis', queue ++ new) ∧ new.Nodup ∧
      (∀ w ∈ new, w ∈ adj ∧ vis[w]? = some false) ∧ vis'.length = vis.length ∧
      (∀ w : Nat, vis'[w]? = some true ↔ vis[w]? = some true ∨ w ∈ new) ∧
      (∀ w ∈ adj, vis'[w]? = some true) := by
  induction adj generalizing vis queue with
  | nil => exact ⟨vis, [], by simp [visitAdjacent], by simp, by simp, rfl, by simp, by simp⟩
  | cons a l ih =>
    have ha := hb a (by simp)
    unfold visitAdjacent
    cases hv : vis[a]? with
    | none => rw [List.getElem?_eq_none_iff] at hv; omega
    | some b =>
      cases b with
      | true =>
        obtain ⟨vis', new, h1, h2, h3, h4, h5, h6⟩ := ih vis queue (fun x hx => hb x (by simp [hx]))
        refine ⟨vis', new, h1, h2, fun w hw => ⟨by simp [(h3 w hw).1], (h3 w hw).2⟩, h4, h5, ?_⟩
        intro w hw
        rcases List.mem_cons.1 hw with rfl | hw
        · exact (h5 _).2 (.inl hv)
        · exact h6 w hw
      | false =>
        obtain ⟨vis', new, h1, h2, h3, h4, h5, h6⟩ := ih (vis.set a true) (queue ++ [a])
          (by simpa using fun x hx => hb x (by simp [hx]))
        have hset : ∀ w : Nat, (vis.set a true)[w]? = some true ↔ vis[w]? = some true ∨ w = a := by
          intro w
          by_cases hw : w = a
          · subst hw; simp [List.getElem?_set_self ha]
          · rw [List.getElem?_set_ne (fun h => hw h.symm)]; simp [hw]
        have hna : a ∉ new := by
          intro hm
          have := (h3 a hm).2
          rw [List.getElem?_set_self ha] at this; cases this
        refine ⟨vis', a :: new, by simp [h1], List.nodup_cons.2 ⟨hna, h2⟩, ?_, by simpa using h4, ?_, ?_⟩
        · intro w hw
          rcases List.mem_cons.1 hw with rfl | hw
          · exact ⟨by simp, hv⟩
          · have hne : a ≠ w := by rintro rfl; exact hna hw
            refine ⟨by simp [(h3 w hw).1], ?_⟩
            have := (h3 w hw).2
            rwa [List.getElem?_set_ne hne] at this
        · intro w
          rw [h5, hset]
          simp only [List.mem_cons]
          tauto
        · intro w hw
          rcases List.mem_cons.1 hw with rfl | hw
          · exact (h5 _).2 (.inl ((hset _).2 (.inr rfl)))
          · exact h6 w hw

/-- `W` is a breadth-first listing from `start`: each later entry is adjacent to an earlier one. -/
def Preds (lanes : List (List Nat)) (W : List Nat) : Prop :=
  ∀ (i w : Nat), 0 < i → W[i]? = some w → ∃ j v, j < i ∧ W[j]? = some v ∧ Adj lanes v w

structure Inv (lanes : List (List Nat)) (P0 : List Nat) (start : Nat) (B : List Nat) (s : State) :
    Prop where
  perm : s.permutation = P0 ++ B
  vislen : s.visited.length = lanes.length
  nodup : (P0 ++ (B ++ s.queue)).Nodup
  vis : ∀ w : Nat, s.visited[w]? = some true ↔ w ∈ P0 ++ (B ++ s.queue)
  head : ∃ rest, B ++ s.queue = start :: rest
  preds : Preds lanes (B ++ s.queue)
  closed : ∀ v ∈ B, ∀ w, Adj lanes v w → w ∈ P0 ++ (B ++ s.queue)

theorem vis_bound {lanes : List (List Nat)} {vis : List Bool} {L : List Nat}
    (hl : vis.length = lanes.length) (h : ∀ w : Nat, vis[w]? = some true ↔ w ∈ L)
    (hn : L.Nodup) : L.length ≤ lanes.length := by
  have hs : L.Subperm (List.range lanes.length) := by
    apply List.Nodup.subperm hn
    intro w hw
    have := (List.getElem?_eq_some_iff.1 ((h w).2 hw)).1
    simp; omega
  simpa using hs.length_le

theorem inner_spec (lanes : List (List Nat)) (srt : List Nat → List Nat)
    (hs : ∀ l, (srt l).Perm l) (hwf : ∀ v w, Adj lanes v w → w < lanes.length)
    (P0 : List Nat) (start : Nat) (fuel : Nat) :
    ∀ (B : List Nat) (s : State), Inv lanes P0 start B s →
      lanes.length ≤ fuel + P0.length + B.length →
      ∃ s' B', inner lanes srt fuel s = some s' ∧ s'.queue = [] ∧ Inv lanes P0 start B' s' := by
  induction fuel with
  | zero =>
    intro B s hI hf
    have := vis_bound hI.vislen hI.vis hI.nodup
    simp only [List.length_append] at this
    have hq : s.queue = [] := List.eq_nil_of_length_eq_zero (by omega)
    exact ⟨s, B, by simp [inner, hq], hq, hI⟩
  | succ fuel ih =>
    intro B s hI hf
    unfold inner
    cases hq : s.queue with
    | nil => exact ⟨s, B, rfl, hq, hI⟩
    | cons v q =>
      have hv : v < lanes.length := by
        have := (List.getElem?_eq_some_iff.1 ((hI.vis v).2 (by simp [hq]))).1
        rwa [hI.vislen] at this
      simp only [List.getElem?_eq_getElem hv]
      have hadjv : ∀ w, w ∈ lanes[v] ↔ Adj lanes v w := by
        intro w
        constructor
        · intro h; exact ⟨_, List.getElem?_eq_getElem hv, h⟩
        · rintro ⟨l, h1, h2⟩; rw [List.getElem?_eq_getElem hv] at h1; cases h1; exact h2
      obtain ⟨vis', new, h1, h2, h3, h4, h5, h6⟩ := visitAdjacent_spec (srt lanes[v]) s.visited q
        (fun a ha => by
          rw [hI.vislen]; exact hwf v a ((hadjv a).1 ((hs _).mem_iff.1 ha)))
      simp only [h1]
      have hW : (B ++ [v]) ++ (q ++ new) = (B ++ s.queue) ++ new := by simp [hq]
      refine ih (B ++ [v]) _ ?_ (by simp; omega)
      have hnew : ∀ w ∈ new, w ∉ P0 ++ (B ++ s.queue) := by
        intro w hw hm
        have := (hI.vis w).2 hm
        rw [(h3 w hw).2] at this; cases this
      refine ⟨by simp [hI.perm], by simp [h4, hI.vislen], ?_, ?_, ?_, ?_, ?_⟩
      · simp only [hW]; rw [← List.append_assoc P0 (B ++ s.queue) new]
        rw [List.nodup_append]
        refine ⟨hI.nodup, h2, ?_⟩
        rintro a ha b hb rfl
        exact hnew a hb ha
      · intro w
        simp only [hW]; rw [← List.append_assoc P0 (B ++ s.queue) new]
        rw [List.mem_append, h5, hI.vis]
      · obtain ⟨rest, hr⟩ := hI.head
        exact ⟨rest ++ new, by simp only [hW, hr]; rfl⟩
      · intro i w hi hw
        simp only [hW] at hw ⊢
        by_cases hlt : i < (B ++ s.queue).length
        · rw [List.getElem?_append_left hlt] at hw
          obtain ⟨j, u, a, b, c⟩ := hI.preds i w hi hw
          exact ⟨j, u, a, by rw [List.getElem?_append_left (by omega)]; exact b, c⟩
        · rw [List.getElem?_append_right (by omega)] at hw
          have hwn := List.mem_of_getElem? hw
          refine ⟨B.length, v, ?_, ?_, (hadjv w).1 ((hs _).mem_iff.1 (h3 w hwn).1)⟩
          · simp [hq] at hlt; omega
          · rw [List.getElem?_append_left (by simp [hq])]
            simp [hq]
      · intro u hu w hw
        simp only [hW]; rw [← List.append_assoc P0 (B ++ s.queue) new]
        rw [List.mem_append]
        rcases List.mem_append.1 hu with hu | hu
        · exact .inl (hI.closed u hu w hw)
        · simp only [List.mem_singleton] at hu
          subst hu
          have := (h5 w).1 (h6 w ((hs _).mem_iff.2 ((hadjv w).2 hw)))
          rcases this with h | h
          · exact .inl ((hI.vis w).1 h)
          · exact .inr h

theorem minByKey_spec (key : Nat → Nat) (l : List Nat) (h : l ≠ []) :
    ∃ x, minByKey key l = some x ∧ x ∈ l ∧ ∀ y ∈ l, key x ≤ key y := by
  induction l with
  | nil => exact absurd rfl h
  | cons a l ih =>
    unfold minByKey
    by_cases hl : l = []
    · subst hl; exact ⟨a, rfl, by simp, by simp⟩
    · obtain ⟨x, h1, h2, h3⟩ := ih hl
      rw [h1]
      simp only
      by_cases hk : key a ≤ key x
      · rw [if_pos hk]
        refine ⟨a, rfl, by simp, ?_⟩
        intro y hy
        rcases List.mem_cons.1 hy with rfl | hy
        · exact Nat.le_refl _
        · exact Nat.le_trans hk (h3 y hy)
      · rw [if_neg hk]
        refine ⟨x, rfl, by simp [h2], ?_⟩
        intro y hy
        rcases List.mem_cons.1 hy with rfl | hy
        · omega
        · exact h3 y hy

/-- What is known about one block of the numbering, after the vertices `P0` were numbered. -/
structure Block (lanes : List (List Nat)) (P0 b : List Nat) : Prop where
  head : ∃ start rest, b = start :: rest ∧
    ∀ w, w < lanes.length → w ∉ P0 → degree lanes start ≤ degree lanes w
  preds : Preds lanes b
  closed : ∀ v ∈ b, ∀ w, Adj lanes v w → w ∈ P0 ++ b

structure OInv (lanes : List (List Nat)) (blocks : List (List Nat)) (s : State) : Prop where
  queue : s.queue = []
  perm : s.permutation = blocks.flatten
  vislen : s.visited.length = lanes.length
  nodup : s.permutation.Nodup
  vis : ∀ w : Nat, s.visited[w]? = some true ↔ w ∈ s.permutation
  blocks : ∀ pre b post, blocks = pre ++ b :: post → Block lanes pre.flatten b

theorem any_false_iff (vis : List Bool) :
    vis.any (· == false) = true ↔ ∃ w : Nat, vis[w]? = some false := by
  rw [List.any_eq_true]
  constructor
  · rintro ⟨b, hb, h⟩
    obtain ⟨i, hi⟩ := List.getElem?_of_mem hb
    simp only [beq_iff_eq] at h
    exact ⟨i, by rw [hi, h]⟩
  · rintro ⟨w, hw⟩
    exact ⟨false, List.mem_of_getElem? hw, by simp⟩

theorem outer_spec (lanes : List (List Nat)) (srt : List Nat → List Nat)
    (hs : ∀ l, (srt l).Perm l) (hwf : ∀ v w, Adj lanes v w → w < lanes.length) (fuel : Nat) :
    ∀ (blocks : List (List Nat)) (s : State), OInv lanes blocks s →
      lanes.length ≤ fuel + s.permutation.length →
      ∃ s' blocks', outer lanes srt fuel s = some s' ∧ OInv lanes blocks' s' ∧
        ∀ w : Nat, s'.visited[w]? ≠ some false := by
  induction fuel with
  | zero =>
    intro blocks s hI hf
    have hno : ∀ w : Nat, s.visited[w]? ≠ some false := by
      intro w hw
      have hwl := (List.getElem?_eq_some_iff.1 hw).1
      have hwp : w ∉ s.permutation := by
        intro hm; have := (hI.vis w).2 hm; rw [hw] at this; cases this
      have hnd : (w :: s.permutation).Nodup := List.nodup_cons.2 ⟨hwp, hI.nodup⟩
      have : (w :: s.permutation).Subperm (List.range lanes.length) := by
        apply List.Nodup.subperm hnd
        intro x hx
        rcases List.mem_cons.1 hx with rfl | hx
        · simp; rw [hI.vislen] at hwl; exact hwl
        · have := (List.getElem?_eq_some_iff.1 ((hI.vis x).2 hx)).1
          simp; rw [hI.vislen] at this; exact this
      have := this.length_le
      simp at this; omega
    have hany : ¬ (s.visited.any (· == false) = true) := by
      rw [any_false_iff]; rintro ⟨w, hw⟩; exact hno w hw
    refine ⟨s, blocks, ?_, hI, hno⟩
    unfold outer
    rw [if_neg hany]
  | succ fuel ih =>
    intro blocks s hI hf
    unfold outer
    by_cases hany : s.visited.any (· == false) = true
    · rw [if_pos hany]
      obtain ⟨w0, hw0⟩ := (any_false_iff _).1 hany
      have hw0l : w0 < lanes.length := by
        have := (List.getElem?_eq_some_iff.1 hw0).1; rwa [hI.vislen] at this
      obtain ⟨start, m1, m2, m3⟩ := minByKey_spec (degree lanes)
        ((List.range lanes.length).filter (fun v => s.visited[v]? == some false))
        (List.ne_nil_of_mem (List.mem_filter.2 ⟨List.mem_range.2 hw0l, by simp [hw0]⟩))
      have hst := List.mem_filter.1 m2
      simp only [List.mem_range, beq_iff_eq] at hst
      unfold leastDegreeVertex
      rw [m1]
      simp only
      have hsp : start ∉ s.permutation := by
        intro hm; have := (hI.vis start).2 hm; rw [hst.2] at this; cases this
      have hslen : start < s.visited.length := by rw [hI.vislen]; exact hst.1
      have hInv : Inv lanes s.permutation start []
          ⟨s.queue ++ [start], s.permutation, s.visited.set start true⟩ := by
        refine ⟨by simp, by simp [hI.vislen], ?_, ?_, ⟨[], by simp [hI.queue]⟩, ?_, by simp⟩
        · simp only [hI.queue, List.nil_append]
          rw [List.nodup_append]
          refine ⟨hI.nodup, by simp, ?_⟩
          rintro a ha b hb rfl
          simp only [List.mem_singleton] at hb
          subst hb; exact hsp ha
        · intro w
          simp only [hI.queue, List.nil_append, List.mem_append, List.mem_singleton]
          by_cases hw : w = start
          · subst hw; simp [List.getElem?_set_self hslen]
          · rw [List.getElem?_set_ne (fun h => hw h.symm), hI.vis]; simp [hw]
        · intro i w hi hw
          simp only [hI.queue, List.nil_append] at hw
          have := (List.getElem?_eq_some_iff.1 hw).1
          simp at this; omega
      obtain ⟨s', B', i1, i2, i3⟩ := inner_spec lanes srt hs hwf s.permutation start
        (lanes.length + 1) [] _ hInv (by omega)
      rw [i1]
      simp only
      have hB : s'.permutation = s.permutation ++ B' := i3.perm
      have hq := i3.nodup
      rw [i2] at hq
      simp only [List.append_nil] at hq
      obtain ⟨rest, hrest⟩ := i3.head
      rw [i2, List.append_nil] at hrest
      have hpreds := i3.preds
      rw [i2, List.append_nil] at hpreds
      have hclosed := i3.closed
      rw [i2, List.append_nil] at hclosed
      refine ih (blocks ++ [B']) s' ?_ (by rw [hB, hrest]; simp; omega)
      refine ⟨i2, by simp [hB, hI.perm], i3.vislen, by rw [hB]; exact hq, ?_, ?_⟩
      · intro w; rw [i3.vis, hB, i2, List.append_nil]
      · intro pre b post hpb
        rcases List.eq_nil_or_concat post with rfl | ⟨post', x, rfl⟩
        · have := List.append_inj' hpb rfl
          obtain ⟨e1, e2⟩ := this
          simp only [List.cons.injEq, and_true] at e2
          subst e1; subst e2
          rw [← hI.perm]
          refine ⟨⟨start, rest, hrest, ?_⟩, hpreds, hclosed⟩
          intro w hw hwp
          apply m3
          refine List.mem_filter.2 ⟨List.mem_range.2 hw, ?_⟩
          have hwv : w < s.visited.length := by rw [hI.vislen]; exact hw
          rw [List.getElem?_eq_getElem hwv]
          cases hb : s.visited[w] with
          | false => rfl
          | true => exact absurd ((hI.vis w).1 (by rw [List.getElem?_eq_getElem hwv, hb])) hwp
        · have : blocks ++ [B'] = (pre ++ b :: post') ++ [x] := by simpa using hpb
          obtain ⟨e1, -⟩ := List.append_inj' this rfl
          exact hI.blocks pre b post' e1
    · rw [if_neg hany]
      refine ⟨s, blocks, rfl, hI, ?_⟩
      intro w hw; exact hany ((any_false_iff _).2 ⟨w, hw⟩)

/-- Everything known about the result. -/
theorem cuthillMckee_spec (srt : List Nat → List Nat) (hs : ∀ l, (srt l).Perm l) (p : Pattern)
    (hsq : p.lanes.length = p.minorDim) (hwf : ∀ l ∈ p.lanes, ∀ w ∈ l, w < p.minorDim) :
    ∃ v blocks, cuthillMckee srt p = some ⟨v⟩ ∧ v.Perm (List.range p.lanes.length) ∧
      v = blocks.flatten ∧
      ∀ pre b post, blocks = pre ++ b :: post → Block p.lanes pre.flatten b := by
  have hwf' : ∀ v w, Adj p.lanes v w → w < p.lanes.length := by
    rintro v w ⟨l, h1, h2⟩
    have := hwf l (List.mem_of_getElem? h1) w h2
    omega
  have hO : OInv p.lanes [] ⟨[], [], List.replicate p.lanes.length false⟩ := by
    refine ⟨rfl, rfl, by simp, by simp, ?_, ?_⟩
    · intro w; simp [List.getElem?_replicate]
    · intro pre b post h; cases pre <;> cases h
  obtain ⟨s, blocks, h1, h2, h3⟩ := outer_spec p.lanes srt hs hwf' (p.lanes.length + 1) [] _ hO
    (by simp)
  have hmem : ∀ w, w ∈ s.permutation ↔ w < p.lanes.length := by
    intro w
    rw [← h2.vis]
    constructor
    · intro h; have := (List.getElem?_eq_some_iff.1 h).1; rwa [h2.vislen] at this
    · intro h
      rw [← h2.vislen] at h
      have := h3 w
      rw [List.getElem?_eq_getElem h] at this ⊢
      cases hb : s.visited[w] with
      | true => rfl
      | false => rw [hb] at this; exact absurd rfl this
  have hp : s.permutation.Perm (List.range p.lanes.length) := by
    rw [List.perm_ext_iff_of_nodup h2.nodup List.nodup_range]
    intro a; rw [hmem]; simp
  have hlen : s.permutation.length = p.lanes.length := by simpa using hp.length_eq
  refine ⟨s.permutation, blocks, ?_, hp, h2.perm, h2.blocks⟩
  unfold cuthillMckee
  rw [if_pos (by exact hsq), h1]
  simp only
  rw [if_pos (by exact hlen)]
  have : Permutation.fromVec s.permutation = .ok ⟨s.permutation⟩ := by
    rw [Permutation.fromVec_ok_iff]
    exact ⟨rfl, h2.nodup, fun i hi => by rw [hlen]; exact (hmem i).1 hi⟩
  rw [this]

end CuthillMcKee
end Fenris
