import Verif.Model.QuadratureTable
/-! # C27: quadrature tables

A rule is a triple of arrays of one length. Every statement ranges over the previous contents `b` of
the buffer, so it also says that nothing of an earlier element's rule survives. -/
set_option autoImplicit false
set_option linter.unusedSectionVars false

namespace Fenris
namespace Quadrature

variable {P W D : Type} [Inhabited P] [Inhabited W] [Inhabited D]

omit [Inhabited P] [Inhabited W] [Inhabited D] in
private theorem rulesConsistent_iff (ps : List (List P)) : ∀ (ws : List (List W)) (ds : List (List D)),
    ps.length = ws.length → ps.length = ds.length →
    (rulesConsistent ps ws ds = true ↔ ∀ (r : Nat) (p : List P) (w : List W) (d : List D),
      ps[r]? = some p → ws[r]? = some w → ds[r]? = some d → p.length = w.length ∧ p.length = d.length) := by
  induction ps with
  | nil => intro ws ds _ _; simp [rulesConsistent]
  | cons p ps ih =>
    intro ws ds hw hd
    cases ws with
    | nil => simp at hw
    | cons w ws =>
      cases ds with
      | nil => simp at hd
      | cons d ds =>
        have := ih ws ds (by simpa using hw) (by simpa using hd)
        simp only [rulesConsistent, Bool.and_eq_true, beq_iff_eq, this]
        constructor
        · rintro ⟨h0, h⟩ r p' w' d' h1 h2 h3
          cases r with
          | zero => simp at h1 h2 h3; subst h1 h2 h3; exact h0
          | succ r => exact h r p' w' d' (by simpa using h1) (by simpa using h2) (by simpa using h3)
        · intro h
          exact ⟨h 0 p w d rfl rfl rfl, fun r p' w' d' h1 h2 h3 =>
            h (r + 1) p' w' d' (by simpa using h1) (by simpa using h2) (by simpa using h3)⟩

omit [Inhabited P] [Inhabited W] [Inhabited D] in
private theorem check_iff (ps : List (List P)) (ws : List (List W)) (ds : List (List D)) :
    checkRulesConsistency ps ws ds = true ↔ ps.length = ws.length ∧ ps.length = ds.length ∧
      ∀ (r : Nat) (p : List P) (w : List W) (d : List D),
        ps[r]? = some p → ws[r]? = some w → ds[r]? = some d → p.length = w.length ∧ p.length = d.length := by
  simp only [checkRulesConsistency, Bool.and_eq_true, beq_iff_eq, and_assoc]
  constructor
  · rintro ⟨h1, h2, h3⟩; exact ⟨h1, h2, (rulesConsistent_iff ps ws ds h1 h2).1 h3⟩
  · rintro ⟨h1, h2, h3⟩; exact ⟨h1, h2, (rulesConsistent_iff ps ws ds h1 h2).2 h3⟩

private theorem vecResize_length {α : Type} (l : List α) (n : Nat) (x : α) :
    (vecResize l n x).length = n := by
  simp [vecResize]; omega

/-- **C27.** A general table is accepted exactly when the three arrays list equally many rules and each
rule has as many weights and data as points. -/
theorem C27_general_accepted_iff (points : List (List P)) (weights : List (List W)) (data : List (List D)) :
    (General.new points weights data = some ⟨points, weights, data⟩ ∨
      General.new points weights data = none) ∧
    (General.new points weights data ≠ none ↔
      points.length = weights.length ∧ points.length = data.length ∧
      ∀ (r : Nat) (p : List P) (w : List W) (d : List D), points[r]? = some p → weights[r]? = some w →
        data[r]? = some d → p.length = w.length ∧ p.length = d.length) := by
  rw [← check_iff]
  simp only [General.new]
  split <;> simp_all

/-- **C27.** A compact table is accepted exactly when the rules are consistent and every element refers
to an existing rule. -/
theorem C27_compact_accepted_iff (points : List (List P)) (weights : List (List W)) (data : List (List D))
    (ruleMap : List Nat) :
    Compact.new points weights data ruleMap ≠ none ↔
      (points.length = weights.length ∧ points.length = data.length ∧
        ∀ (r : Nat) (p : List P) (w : List W) (d : List D), points[r]? = some p → weights[r]? = some w →
          data[r]? = some d → p.length = w.length ∧ p.length = d.length) ∧
      ∀ r ∈ ruleMap, r < points.length := by
  rw [← check_iff]
  simp only [Compact.new]
  split <;> simp_all

/-- **C27.** Filling a buffer for element `e` from a general table leaves in it exactly the points, weights
and data given for `e`, whatever the buffer held before. -/
theorem C27_general_returns_rule (points : List (List P)) (weights : List (List W)) (data : List (List D))
    (t : General P W D) (h : General.new points weights data = some t)
    (e : Nat) (p : List P) (w : List W) (d : List D)
    (hp : points[e]? = some p) (hw : weights[e]? = some w) (hd : data[e]? = some d) (b : Buffer P W D) :
    b.populate e t.table = some ⟨p, w, d⟩ := by
  simp only [General.new] at h
  split at h
  case isFalse => cases h
  case isTrue hc =>
    obtain ⟨-, -, hc⟩ := (check_iff _ _ _).1 hc
    obtain ⟨h1, h2⟩ := hc e p w d hp hw hd
    cases h
    simp [Buffer.populate, General.table, Table.populateBoth, Buffer.resize, copyInto, vecResize_length,
      hp, hw, hd, ← h1, ← h2]

/-- **C27.** Filling a buffer for element `e` from a compact table leaves in it exactly the points, weights
and data of the rule assigned to `e`. -/
theorem C27_compact_returns_assigned_rule (points : List (List P)) (weights : List (List W))
    (data : List (List D)) (ruleMap : List Nat) (t : Compact P W D)
    (h : Compact.new points weights data ruleMap = some t)
    (e r : Nat) (hr : ruleMap[e]? = some r) (b : Buffer P W D) :
    ∃ p w d, points[r]? = some p ∧ weights[r]? = some w ∧ data[r]? = some d ∧
      b.populate e t.table = some ⟨p, w, d⟩ := by
  simp only [Compact.new] at h
  split at h
  case isFalse => cases h
  case isTrue hc =>
    obtain ⟨hc, hm⟩ := (Bool.and_eq_true _ _).mp hc
    obtain ⟨l1, l2, hc⟩ := (check_iff _ _ _).1 hc
    have hlt : r < points.length := by
      have := List.all_eq_true.1 hm r (List.mem_of_getElem? hr)
      simpa using this
    have hp := List.getElem?_eq_getElem hlt
    have hw := List.getElem?_eq_getElem (l := weights) (i := r) (by omega)
    have hd := List.getElem?_eq_getElem (l := data) (i := r) (by omega)
    obtain ⟨h1, h2⟩ := hc r _ _ _ hp hw hd
    cases h
    refine ⟨_, _, _, hp, hw, hd, ?_⟩
    simp only [Buffer.populate, Compact.table, Table.populateBoth, Buffer.resize, hp, hw, hd, hr,
      Option.bind_some, Option.map_some, copyInto, vecResize_length, if_true, ← h1, ← h2]

/-- **C27.** A compact table is observationally the general table in which the assigned rule is repeated for
every element: that general table is accepted, and both fill every buffer alike for every element index;
past the last element both panic. -/
theorem C27_compact_equals_expanded_general (points : List (List P)) (weights : List (List W))
    (data : List (List D)) (ruleMap : List Nat) (t : Compact P W D)
    (h : Compact.new points weights data ruleMap = some t)
    (points' : List (List P)) (weights' : List (List W)) (data' : List (List D))
    (hp : points'.map some = ruleMap.map (fun r => points[r]?))
    (hw : weights'.map some = ruleMap.map (fun r => weights[r]?))
    (hd : data'.map some = ruleMap.map (fun r => data[r]?)) :
    ∃ t', General.new points' weights' data' = some t' ∧
      ∀ (e : Nat) (b : Buffer P W D), b.populate e t.table = b.populate e t'.table := by
  have hacc := (C27_compact_accepted_iff points weights data ruleMap).1 (by rw [h]; simp)
  obtain ⟨⟨l1, l2, hc⟩, hm⟩ := hacc
  have lp : points'.length = ruleMap.length := by simpa using congrArg List.length hp
  have lw : weights'.length = ruleMap.length := by simpa using congrArg List.length hw
  have ld : data'.length = ruleMap.length := by simpa using congrArg List.length hd
  have gp : ∀ (e r : Nat), ruleMap[e]? = some r → points'[e]? = points[r]? := by
    intro e r hr
    have := congrArg (fun l => l[e]?) hp
    simp only [List.getElem?_map, hr, Option.map_some] at this
    cases hq : points'[e]? <;> simp_all
  have gw : ∀ (e r : Nat), ruleMap[e]? = some r → weights'[e]? = weights[r]? := by
    intro e r hr
    have := congrArg (fun l => l[e]?) hw
    simp only [List.getElem?_map, hr, Option.map_some] at this
    cases hq : weights'[e]? <;> simp_all
  have gd : ∀ (e r : Nat), ruleMap[e]? = some r → data'[e]? = data[r]? := by
    intro e r hr
    have := congrArg (fun l => l[e]?) hd
    simp only [List.getElem?_map, hr, Option.map_some] at this
    cases hq : data'[e]? <;> simp_all
  have hnew : General.new points' weights' data' = some ⟨points', weights', data'⟩ := by
    have hne := (C27_general_accepted_iff points' weights' data').2.2
      ⟨by omega, by omega, by
        intro e p w d h1 h2 h3
        have he : e < ruleMap.length := by
          have := (List.getElem?_eq_some_iff.1 h1).1; omega
        have hr := List.getElem?_eq_getElem he
        rw [gp e _ hr] at h1
        rw [gw e _ hr] at h2
        rw [gd e _ hr] at h3
        exact hc _ _ _ _ h1 h2 h3⟩
    rcases (C27_general_accepted_iff points' weights' data').1 with h | h
    · exact h
    · exact absurd h hne
  refine ⟨_, hnew, fun e b => ?_⟩
  cases hr : ruleMap[e]? with
  | some r =>
    obtain ⟨p, w, d, h1, h2, h3, h4⟩ :=
      C27_compact_returns_assigned_rule points weights data ruleMap t h e r hr b
    rw [h4]
    exact (C27_general_returns_rule points' weights' data' _ hnew e p w d
      ((gp e r hr).trans h1) ((gw e r hr).trans h2) ((gd e r hr).trans h3) b).symm
  | none =>
    have ht : t.ruleMap = ruleMap := by
      simp only [Compact.new] at h
      split at h <;> cases h; rfl
    have hge : ruleMap.length ≤ e := by simpa using hr
    have h2 : weights'[e]? = none := by simp; omega
    simp [Buffer.populate, Compact.table, General.table, ht, hr, h2]

/-- **C27.** A uniform table is accepted exactly when the three arrays have one length, and then returns the
given rule for every element. -/
theorem C27_uniform_returns_the_rule (points : List P) (weights : List W) (data : List D) :
    (Uniform.new points weights data ≠ none ↔
      points.length = weights.length ∧ points.length = data.length) ∧
    ∀ t, Uniform.new points weights data = some t → ∀ (e : Nat) (b : Buffer P W D),
      b.populate e t.table = some ⟨points, weights, data⟩ := by
  constructor
  · simp only [Uniform.new]; split <;> simp_all <;> omega
  · intro t h e b
    simp only [Uniform.new] at h
    split at h
    case isFalse => cases h
    case isTrue hc =>
      cases h
      simp [Buffer.populate, Uniform.table, Table.populateBoth, Buffer.resize, copyInto, vecResize_length,
        ← hc.1, ← hc.2]

/-- **C27.** Constructing a uniform table from a quadrature pair and a datum, or replacing the data of a
uniform table, keeps points and weights and attaches that datum to every point. -/
theorem C27_uniform_data (points : List P) (weights : List W) (d : D) :
    (∀ t, Uniform.fromQuadratureAndData (weights, points) d = some t → ∀ (e : Nat) (b : Buffer P W D),
      b.populate e t.table = some ⟨points, weights, List.replicate points.length d⟩) ∧
    (points.length = weights.length →
      ∃ t, Uniform.fromQuadratureAndData (weights, points) d = some t) ∧
    (∀ (D' : Type) (data' : List D') (t' : Uniform P W D'), Uniform.new points weights data' = some t' →
      t'.withUniformData d = Uniform.fromQuadratureAndData (weights, points) d ∧
      t'.withUniformData d ≠ none) := by
  refine ⟨fun t h e b => ?_, fun h => ?_, fun D' data' t' h => ?_⟩
  · have hl : points.length = weights.length := by
      simp only [Uniform.fromQuadratureAndData, Uniform.new] at h
      split at h
      case isFalse => cases h
      case isTrue hc => exact hc.1
    rw [hl]
    exact (C27_uniform_returns_the_rule points weights (List.replicate weights.length d)).2 t h e b
  · exact ⟨⟨points, weights, List.replicate weights.length d⟩, by
      simp [Uniform.fromQuadratureAndData, Uniform.new, h]⟩
  · simp only [Uniform.new] at h
    split at h
    case isFalse => cases h
    case isTrue hc =>
      cases h
      simp [Uniform.withUniformData, Uniform.fromQuadratureAndData, Uniform.new, hc.1]

/-- **C27.** Tables built without data carry one unit datum per point and otherwise the given rules: general,
compact and uniform. -/
theorem C27_unit_data_tables (points : List (List P)) (weights : List (List W)) (ruleMap : List Nat)
    (up : List P) (uw : List W) :
    (∀ t, General.fromPointsAndWeights points weights = some t →
      ∀ (e : Nat) (p : List P) (w : List W), points[e]? = some p → weights[e]? = some w →
      ∀ b : Buffer P W Unit, b.populate e t.table = some ⟨p, w, List.replicate p.length ()⟩) ∧
    (∀ t, Compact.fromPointsWeightsAndMap points weights ruleMap = some t →
      ∀ (e r : Nat), ruleMap[e]? = some r → ∃ p w, points[r]? = some p ∧ weights[r]? = some w ∧
      ∀ b : Buffer P W Unit, b.populate e t.table = some ⟨p, w, List.replicate p.length ()⟩) ∧
    (∀ t, Uniform.fromPointsAndWeights up uw = some t →
      ∀ (e : Nat) (b : Buffer P W Unit), b.populate e t.table = some ⟨up, uw, List.replicate up.length ()⟩) := by
  refine ⟨fun t h e p w hp hw b => ?_, fun t h e r hr => ?_, fun t h e b => ?_⟩
  · have hd : (unitData weights)[e]? = some (List.replicate w.length ()) := by simp [unitData, hw]
    have hl := ((C27_general_accepted_iff points weights (unitData weights)).2.1
      (by rw [show General.new points weights (unitData weights) = some t from h]; simp)).2.2 e p w _ hp hw hd
    rw [C27_general_returns_rule points weights _ t h e p w _ hp hw hd b, hl.1]
  · have hacc := (C27_compact_accepted_iff points weights (unitData weights) ruleMap).1
      (by rw [show Compact.new points weights (unitData weights) ruleMap = some t from h]; simp)
    obtain ⟨p, w, d, h1, h2, h3, -⟩ :=
      C27_compact_returns_assigned_rule points weights _ ruleMap t h e r hr ⟨[], [], []⟩
    refine ⟨p, w, h1, h2, fun b => ?_⟩
    obtain ⟨p', w', d', h1', h2', h3', h4'⟩ :=
      C27_compact_returns_assigned_rule points weights _ ruleMap t h e r hr b
    rw [h1] at h1'; rw [h2] at h2'
    cases h1'; cases h2'
    have hl := hacc.1.2.2 r p w d' h1 h2 h3'
    have : d' = List.replicate p.length () := by
      apply List.ext_getElem
      · simp [hl.2]
      · intro i _ _; exact Subsingleton.elim _ _
    rw [h4', this]
  · exact (C27_uniform_returns_the_rule up uw _).2 t h e b

/-- **C27.** Filling only points and weights gives the same points and weights as filling the whole buffer; the buffer's
data may have another type than the table's and play no role. -/
theorem C27_weights_and_points {D' : Type} [Inhabited D'] (t : Table P W D) (e : Nat) (p : List P) (w : List W) (d : List D)
    (h : ∀ b : Buffer P W D, b.populate e t = some ⟨p, w, d⟩) (b : Buffer P W D') :
    ∃ d', b.populateWeightsAndPoints e t = some ⟨p, w, d'⟩ := by
  have h1 := h ⟨b.points, b.weights, []⟩
  simp only [Buffer.populate, Table.populateBoth, Buffer.resize] at h1
  rw [Buffer.populateWeightsAndPoints]
  cases hs : t.size e with
  | none => rw [hs] at h1; cases h1
  | some n =>
    rw [hs, Option.bind_some] at h1
    rw [Option.bind_some]
    simp only [Buffer.resize]
    cases hq : t.populateQuadrature e (vecResize b.points n default) (vecResize b.weights n default) with
    | none => rw [hq] at h1; cases h1
    | some pw =>
      rw [hq, Option.bind_some] at h1
      cases hd : t.populateData e (vecResize [] n default) with
      | none => rw [hd] at h1; cases h1
      | some d'' =>
        rw [hd] at h1
        cases h1
        exact ⟨_, rfl⟩

/-- **C27.** A uniform table fills every buffer like the general table repeating its rule `n` times, for
every element below `n`. -/
theorem C27_uniform_equals_expanded_general (points : List P) (weights : List W) (data : List D)
    (t : Uniform P W D) (h : Uniform.new points weights data = some t) (n : Nat) :
    ∃ t', General.new (List.replicate n points) (List.replicate n weights) (List.replicate n data) = some t' ∧
      ∀ (e : Nat) (b : Buffer P W D), e < n → b.populate e t.table = b.populate e t'.table := by
  have hl := (C27_uniform_returns_the_rule points weights data).1.1 (by rw [h]; simp)
  have hne := (C27_general_accepted_iff (List.replicate n points) (List.replicate n weights)
    (List.replicate n data)).2.2 ⟨by simp, by simp, by
      intro r p w d h1 h2 h3
      simp only [List.getElem?_replicate] at h1 h2 h3
      split at h1 <;> simp_all <;> omega⟩
  rcases (C27_general_accepted_iff (List.replicate n points) (List.replicate n weights)
    (List.replicate n data)).1 with hn | hn
  · refine ⟨_, hn, fun e b he => ?_⟩
    rw [(C27_uniform_returns_the_rule points weights data).2 t h e b]
    exact (C27_general_returns_rule _ _ _ _ hn e points weights data (by simp [he]) (by simp [he])
      (by simp [he]) b).symm
  · exact absurd hn hne

/-- **C27.** A general table gives back the parts it was built from. -/
theorem C27_into_parts (points : List (List P)) (weights : List (List W)) (data : List (List D))
    (t : General P W D) (h : General.new points weights data = some t) :
    t.intoParts = (points, weights, data) := by
  simp only [General.new] at h
  split at h <;> cases h; rfl

/-- Two rules of different sizes, three elements; the buffer holds a longer, stale rule. -/
example : (Compact.new [[1, 2], [3]] [[10, 20], [30]] [[5, 6], [7]] [1, 0, 1]).bind (fun t =>
    (⟨[9, 9, 9], [9, 9, 9], [9, 9, 9]⟩ : Buffer Nat Nat Nat).populate 2 t.table) = some ⟨[3], [30], [7]⟩ := by
  decide

example : Compact.new [[1, 2], [3]] [[10, 20], [30]] [[5, 6], [7]] [1, 0, 2] = none ∧
    General.new [[1, 2], [3]] [[10, 20], [30]] [[5, 6], [7]] = some ⟨[[1, 2], [3]], [[10, 20], [30]], [[5, 6], [7]]⟩ ∧
    Uniform.new [1, 2] [10, 20] [5, 6] ≠ none := by
  decide

end Quadrature
end Fenris
