import Verif.Lemmas.Scatter
import Verif.Lemmas.Coloring
/-! # Colour by colour assembly -/
set_option autoImplicit false
set_option linter.unusedSectionVars false

namespace Fenris
namespace Assembly

theorem exec_congr {σ α : Type} (subs : List (List Nat)) (w w' : Nat → Worker σ α)
    (h : ∀ k, k < subs.length → w k = w' k) (sched : List Nat) :
    ∀ st, ParState.exec subs w st sched = ParState.exec subs w' st sched := by
  induction sched with
  | nil => intro st; rfl
  | cons k sched ih =>
    intro st
    have hstep : ParState.step subs w st k = ParState.step subs w' st k := by
      unfold ParState.step
      by_cases hk : k < subs.length
      · rw [h k hk]
      · rw [List.getElem?_eq_none (l := subs) (by omega)]
        split <;> simp_all
    simp only [ParState.exec, List.foldlM_cons, hstep]
    cases ParState.step subs w' st k with
    | none => rfl
    | some st' => exact ih st'

variable {ρ Ω K : Type} [AddCommMonoid K]

/-- A colour refers to elements and its subsets are their nodes. -/
def ColorOf (elements : List (List Nat)) (d : DisjointSubsets) : Prop :=
  d.labels.map (fun i => elements[i]?) = d.subsets.map some

theorem ColorOf.length {elements : List (List Nat)} {d : DisjointSubsets} (h : ColorOf elements d) :
    d.labels.length = d.subsets.length := by
  have := congrArg List.length h
  simpa using this

theorem ColorOf.get {elements : List (List Nat)} {d : DisjointSubsets} (h : ColorOf elements d)
    (k : Nat) (hk : k < d.subsets.length) :
    ∃ l, d.labels[k]? = some l ∧ elements[l]? = some d.subsets[k] := by
  have hl : k < d.labels.length := by rw [h.length]; exact hk
  refine ⟨d.labels[k], List.getElem?_eq_getElem hl, ?_⟩
  have := congrArg (fun l => l[k]?) h
  simp only [List.getElem?_map, List.getElem?_eq_getElem hl, List.getElem?_eq_getElem hk,
    Option.map_some, Option.some.injEq] at this
  exact this

theorem runColor_spec (obs : ρ → Ω → K) (Good : Nat → ρ → Prop) (debug : Bool) (s : Nat)
    (hs : 0 < s) (N : Nat)
    (elements : List (List Nat)) (d : DisjointSubsets) (hd : ColorOf elements d)
    (hpar : d.parIterAllowed debug N = true)
    (upd : Nat → List Nat → Nat → Nat → ρ → Option ρ)
    (δ : Nat → List Nat → Nat → Nat → Ω → K)
    (hu : ∀ l nodes, elements[l]? = some nodes →
      UpdOk obs Good s nodes (upd l nodes) (δ l nodes))
    (hN : ∀ nodes ∈ elements, ∀ n ∈ nodes, n < N) (sched : List Nat)
    (hsched : ∀ k nodes, d.subsets[k]? = some nodes → nodes.length ≤ sched.count k)
    (rows : List ρ) (hrows : rows.length = s * N ∧ AllGood Good rows) :
    ∃ rows', runColor debug s d elements upd rows sched = some rows' ∧
      (rows'.length = s * N ∧ AllGood Good rows') ∧
      ∀ x, obsAt obs rows' x = obsAt obs rows x +
        (d.labels.map (fun l => elemSum s (elements[l]?.getD [])
          (δ l (elements[l]?.getD [])) x)).sum := by
  obtain ⟨blocks, hb1, hb2, hb3⟩ := toBlocks_spec s N hs Good rows hrows
  have hlab : ∀ l ∈ d.labels, l < elements.length := by
    intro l hl
    obtain ⟨k, hk, rfl⟩ := List.getElem_of_mem hl
    obtain ⟨l', h1, h2⟩ := hd.get k (by rw [← hd.length]; exact hk)
    rw [List.getElem?_eq_getElem hk] at h1
    cases h1
    by_contra hc
    rw [List.getElem?_eq_none (by omega)] at h2; cases h2
  have hkey : ∀ (k : Nat) (nodes : List Nat), d.subsets[k]? = some nodes →
      elements[d.labels[k]?.getD 0]? = some nodes := by
    intro k nodes hk
    have hlt : k < d.subsets.length := by
      by_contra hc; rw [List.getElem?_eq_none (by omega)] at hk; cases hk
    obtain ⟨l, h1, h2⟩ := hd.get k hlt
    rw [h1, Option.getD_some, h2, ← List.getElem?_eq_getElem hlt, hk]
  have hNs : ∀ nodes ∈ d.subsets, ∀ n ∈ nodes, n < N := by
    intro nodes hn
    obtain ⟨k, hk, rfl⟩ := List.getElem_of_mem hn
    exact hN _ (List.mem_of_getElem? (hkey k _ (List.getElem?_eq_getElem hk)))
  obtain ⟨blocks', pos', e1, e2, e3, e4, e5⟩ := exec_spec obs Good s N d.subsets
    (fun k => upd (d.labels[k]?.getD 0) (d.subsets[k]?.getD []))
    (fun k => δ (d.labels[k]?.getD 0) (d.subsets[k]?.getD []))
    (by intro k nodes hk
        simp only [hk, Option.getD_some]
        exact hu _ _ (hkey k nodes hk))
    hNs sched blocks (fun _ => 0) hb2 (fun _ => Nat.zero_le _)
  have hw : ∀ k, k < d.subsets.length →
      (let label := d.labels[k]?.getD 0
       let nodes := elements[label]?.getD []
       scatterWorker s nodes.length (upd label nodes)) =
      scatterWorker s ((d.subsets[k]?.getD []).length)
        (upd (d.labels[k]?.getD 0) (d.subsets[k]?.getD [])) := by
    intro k hk
    have := hkey k _ (List.getElem?_eq_getElem hk)
    simp only [this, List.getElem?_eq_getElem hk]
  have hinit : List.replicate d.subsets.length (some (some 0)) =
      (List.range d.subsets.length).map (fun _ => some (some (0 : Nat))) := by
    rw [List.map_const', List.length_range]
  have hpos : ∀ k, k < d.subsets.length → pos' k = (d.subsets[k]?.getD []).length := by
    intro k hk
    rw [e4 k hk]
    have := hsched k _ (List.getElem?_eq_getElem hk)
    rw [List.getElem?_eq_getElem hk]
    simp only [Option.getD_some]; omega
  have huni : ∀ b ∈ blocks', b.length = s := by
    intro b hb
    obtain ⟨I, hI, rfl⟩ := List.getElem_of_mem hb
    exact (e2.2 I _ (List.getElem?_eq_getElem hI)).1
  have huni0 : ∀ b ∈ blocks, b.length = s := by
    intro b hb
    obtain ⟨I, hI, rfl⟩ := List.getElem_of_mem hb
    exact (hb2.2 I _ (List.getElem?_eq_getElem hI)).1
  refine ⟨blocks'.flatten, ?_, ⟨?_, ?_⟩, ?_⟩
  · unfold runColor
    rw [hb1]
    simp only
    rw [if_pos ⟨by rw [hb2.1]; exact hpar, hlab⟩, exec_congr d.subsets _ _ hw, hinit, e1]
    simp
  · rw [flatten_length_uniform s _ huni, e2.1]
  · intro r row hr
    have := flatten_get_uniform s blocks' huni (r / s) (r % s) (Nat.mod_lt _ hs)
    rw [Nat.div_add_mod, hr] at this
    cases hI : blocks'[r / s]? with
    | none => rw [hI] at this; cases this
    | some b =>
      rw [hI] at this
      have h : Good (s * (r / s) + r % s) row := (e2.2 _ _ hI).2 _ _ this.symm
      rwa [Nat.div_add_mod] at h
  · intro x
    rw [← hb3, obsAt_flatten s hs obs blocks' huni, obsAt_flatten s hs obs blocks huni0]
    have h5 := e5 x
    have hz : remaining s d.subsets
        (fun k => δ (d.labels[k]?.getD 0) (d.subsets[k]?.getD [])) pos' x = 0 := by
      unfold remaining
      apply Finset.sum_eq_zero
      intro k hk
      rw [hpos k (by simpa using hk), Finset.Ico_self, Finset.sum_empty]
    rw [hz, add_zero] at h5
    rw [h5]
    congr 1
    rw [sum_map_getD d.labels 0, hd.length]
    unfold remaining
    apply Finset.sum_congr rfl
    intro k hk
    have hk : k < d.subsets.length := by simpa using hk
    have := hkey k _ (List.getElem?_eq_getElem hk)
    simp only [this, List.getElem?_eq_getElem hk, Option.getD_some, elemSum, Finset.range_eq_Ico]

variable {E V : Type}

theorem colorErrors_nil (elem : Nat → Except E V) (d : DisjointSubsets)
    (h : ∀ l ∈ d.labels, ∃ v, elem l = .ok v) : colorErrors elem d = [] := by
  unfold colorErrors
  rw [List.filterMap_eq_nil_iff]
  intro l hl
  obtain ⟨v, hv⟩ := h l hl
  rw [hv]

theorem colorsLoop_ok (obs : ρ → Ω → K) (Good : Nat → ρ → Prop) (debug : Bool) (s : Nat)
    (hs : 0 < s) (N : Nat) (elements : List (List Nat)) (elem : Nat → Except E V)
    (upd : V → List Nat → Nat → Nat → ρ → Option ρ) (dflt : V) (pick : Nat)
    (val : Nat → V) (δ : V → List Nat → Nat → Nat → Ω → K)
    (hu : ∀ l nodes, elements[l]? = some nodes → elem l = .ok (val l) →
      UpdOk obs Good s nodes (upd (val l) nodes) (δ (val l) nodes))
    (hN : ∀ nodes ∈ elements, ∀ n ∈ nodes, n < N)
    (hval : ∀ l v, elem l = .ok v → v = val l) :
    ∀ (colors : List (DisjointSubsets × List Nat)) (rows : List ρ),
    (∀ c ∈ colors, ColorOf elements c.1 ∧ c.1.parIterAllowed debug N = true ∧
      ∀ k nodes, c.1.subsets[k]? = some nodes → nodes.length ≤ c.2.count k) →
    (rows.length = s * N ∧ AllGood Good rows) →
    ((∀ c ∈ colors, ∀ l ∈ c.1.labels, ∃ v, elem l = .ok v) ∧
      ∃ rows', colorsLoop debug s elements elem upd dflt pick colors rows = some (.ok rows') ∧
      (rows'.length = s * N ∧ AllGood Good rows') ∧
      ∀ x, obsAt obs rows' x = obsAt obs rows x +
        ((colors.flatMap (fun c => c.1.labels)).map (fun l => elemSum s (elements[l]?.getD [])
          (δ (val l) (elements[l]?.getD [])) x)).sum) ∨
    (∃ c ∈ colors, ∃ l ∈ c.1.labels, ∃ e, elem l = .error e ∧
      colorsLoop debug s elements elem upd dflt pick colors rows = some (.error e)) := by
  intro colors
  induction colors with
  | nil => intro rows _ h; exact Or.inl ⟨by simp, rows, rfl, h, by simp⟩
  | cons c colors ih =>
    intro rows hc h
    obtain ⟨d, sched⟩ := c
    obtain ⟨hd, hpar, hsched⟩ := hc (d, sched) (by simp)
    by_cases hok : ∀ l ∈ d.labels, ∃ v, elem l = .ok v
    · have hnil := colorErrors_nil elem d hok
      -- replace failing elements (none in this colour) by anything
      obtain ⟨rows1, h1, h2, h3⟩ := runColor_spec obs Good debug s hs N
        elements d hd hpar
        (fun l => if l ∈ d.labels then upd (okOr dflt (elem l))
          else fun _ _ _ row => some row)
        (fun l nodes => if l ∈ d.labels then δ (val l) nodes else fun _ _ _ => 0)
        (by
          intro l nodes hl
          by_cases hm : l ∈ d.labels
          · obtain ⟨v, hv⟩ := hok l hm
            simp only [hm, if_true, hv, okOr]
            rw [hval l v hv]
            exact hu l nodes hl (by rw [hv, hval l v hv])
          · simp only [hm, if_false]
            intro a n ha i hi row hrow
            exact ⟨row, rfl, hrow, by simp⟩)
        hN sched hsched rows h
      have hrun : runColor debug s d elements
          (fun l => upd (okOr dflt (elem l))) rows sched =
          some rows1 := by
        rw [← h1]
        unfold runColor
        cases toBlocks s rows with
        | none => rfl
        | some blocks =>
          simp only
          have : ∀ st, ParState.exec d.subsets (fun k =>
              let label := d.labels[k]?.getD 0
              let nodes := elements[label]?.getD []
              scatterWorker s nodes.length
                (upd (okOr dflt (elem label)) nodes)) st sched =
              ParState.exec d.subsets (fun k =>
              let label := d.labels[k]?.getD 0
              let nodes := elements[label]?.getD []
              scatterWorker s nodes.length
                ((if label ∈ d.labels then
                  upd (okOr dflt (elem label))
                  else fun _ _ _ row => some row) nodes)) st sched := by
            intro st
            apply exec_congr
            intro k hk
            obtain ⟨l, hl, -⟩ := hd.get k hk
            simp only [hl, Option.getD_some, List.mem_of_getElem? hl, if_true]
          simp only [this]
      rcases ih rows1 (fun c hc' => hc c (by simp [hc'])) h2 with ⟨ha, rows2, e1, e2, e3⟩ | ⟨c, hcm, l, hl, e, he, hr⟩
      · left
        refine ⟨?_, rows2, ?_, e2, ?_⟩
        · intro c hc'
          rcases List.mem_cons.1 hc' with rfl | h
          · exact hok
          · exact ha c h
        · rw [colorsLoop, hnil]
          simp only [List.length_nil, List.getElem?_nil, hrun, e1]
        · intro x
          rw [e3, h3, List.flatMap_cons, List.map_append, List.sum_append, add_assoc]
          congr 2
          apply congrArg
          apply List.map_congr_left
          intro l hl
          simp only [hl, if_true]
      · right
        refine ⟨c, by simp [hcm], l, hl, e, he, ?_⟩
        rw [colorsLoop, hnil]
        simp only [List.length_nil, List.getElem?_nil, hrun, hr]
    · right
      have hne : colorErrors elem d ≠ [] := by
        intro hnil
        apply hok
        intro l hl
        unfold colorErrors at hnil
        rw [List.filterMap_eq_nil_iff] at hnil
        have := hnil l hl
        cases hel : elem l with
        | ok v => exact ⟨v, rfl⟩
        | error e => rw [hel] at this; cases this
      have hlt : pick % (colorErrors elem d).length < (colorErrors elem d).length :=
        Nat.mod_lt _ (List.length_pos_iff.2 hne)
      have hmem := List.getElem_mem hlt
      unfold colorErrors at hmem
      rw [List.mem_filterMap] at hmem
      obtain ⟨l, hl, he⟩ := hmem
      refine ⟨(d, sched), by simp, l, hl,
        (colorErrors elem d)[pick % (colorErrors elem d).length], ?_, ?_⟩
      · cases hel : elem l with
        | ok v => rw [hel] at he; cases he
        | error e =>
          rw [hel] at he
          simp only [Option.some.injEq] at he
          rw [he]; rfl
      · rw [colorsLoop, List.getElem?_eq_getElem hlt]

end Assembly
end Fenris
