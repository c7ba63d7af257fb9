import Verif.Spec.Polyquad
import Mathlib.Data.List.Basic
import Mathlib.Data.List.Forall2
import Mathlib.Order.Basic
/-! # C43 (rule selection) and C44 (rule file parser) -/
set_option autoImplicit false
set_option linter.unusedSimpArgs false

namespace Fenris.Polyquad
open Fenris.Spec.Polyquad
variable {K : Type}

/-! ## Splitting -/

private theorem pieces_ne_nil (sep : Char → Bool) (l : List Char) : pieces sep l ≠ [] := by
  cases l with
  | nil => simp [pieces]
  | cons c l =>
    simp only [pieces]
    split
    · simp
    · cases pieces sep l <;> simp [consFirst]

private theorem pieces_clean (sep : Char → Bool) (w : List Char) (h : ∀ c ∈ w, sep c = false) :
    pieces sep w = [w] := by
  induction w with
  | nil => rfl
  | cons c w ih =>
    rw [pieces, ih (fun d hd => h d (List.mem_cons_of_mem _ hd)), h c List.mem_cons_self]
    simp [consFirst]

private theorem pieces_clean_sep (sep : Char → Bool) (w : List Char) (d : Char) (r : List Char)
    (h : ∀ c ∈ w, sep c = false) (hd : sep d = true) :
    pieces sep (w ++ d :: r) = w :: pieces sep r := by
  induction w with
  | nil => simp [pieces, hd]
  | cons c w ih =>
    rw [List.cons_append, pieces, ih (fun e he => h e (List.mem_cons_of_mem _ he)),
      h c List.mem_cons_self]
    simp [consFirst]

private theorem pieces_snoc (sep : Char → Bool) (l : List Char) (d : Char) (hd : sep d = true) :
    pieces sep (l ++ [d]) = pieces sep l ++ [[]] := by
  induction l with
  | nil => simp [pieces, hd]
  | cons c l ih =>
    rw [List.cons_append, pieces, pieces, ih]
    cases sep c with
    | true => simp
    | false =>
      cases h : pieces sep l with
      | nil => exact absurd h (pieces_ne_nil sep l)
      | cons p ps => simp [consFirst]

private theorem isSpace_iff (c : Char) : isSpace c = true ↔ Blank c ∨ c = '\n' := by
  simp only [isSpace, Blank, Bool.or_eq_true, beq_iff_eq]
  tauto

private theorem words_space (c : Char) (l : List Char) (h : isSpace c = true) :
    words (c :: l) = words l := by
  simp [words, pieces, h]

private theorem words_snoc (c : Char) (l : List Char) (h : isSpace c = true) :
    words (l ++ [c]) = words l := by
  simp [words, pieces_snoc isSpace l c h]

private theorem words_blanks (s l : List Char) (h : ∀ c ∈ s, Blank c) :
    words (s ++ l) = words l := by
  induction s with
  | nil => rfl
  | cons c s ih =>
    rw [List.cons_append, words_space c _ ((isSpace_iff c).2 (.inl (h c List.mem_cons_self))),
      ih (fun d hd => h d (List.mem_cons_of_mem _ hd))]

private theorem ink_not_space (c : Char) (h : Ink c) : isSpace c = false := by
  have : ¬ isSpace c = true := by
    rw [isSpace_iff]
    rintro (h1 | h1)
    · exact h.1 h1
    · exact h.2 h1
  simpa using this

private theorem words_line (ts : List (List Char)) (line : List Char) (h : Line ts line) :
    words line = ts := by
  induction h with
  | blank s hs =>
    have := words_blanks s [] hs
    rw [List.append_nil] at this
    rw [this]; rfl
  | token s w rest ts hs hw hi hr _ ih =>
    rw [List.append_assoc, words_blanks s _ hs]
    have hc : ∀ c ∈ w, isSpace c = false := fun c hc => ink_not_space c (hi c hc)
    have hne : w.isEmpty = false := by cases w with
      | nil => exact absurd rfl hw
      | cons a b => rfl
    cases rest with
    | nil =>
      have h0 : words [] = ts := ih
      have h1 : (words [] : List (List Char)) = [] := rfl
      rw [List.append_nil, words, pieces_clean isSpace w hc, ← h0, h1]
      simp [hne]
    | cons d r =>
      have hd : isSpace d = true := (isSpace_iff d).2 (.inl (hr d (by simp)))
      rw [words_space d r hd] at ih
      rw [words, pieces_clean_sep isSpace w d r hc hd, List.filter_cons]
      simp only [hne, Bool.not_false, if_true]
      rw [← ih]; rfl

private theorem line_no_newline (ts : List (List Char)) (line : List Char) (h : Line ts line) :
    ∀ c ∈ line, (c == '\n') = false := by
  have hb : ∀ c, Blank c → (c == '\n') = false := by
    rintro c (h | h | h | h) <;> subst h <;> decide
  induction h with
  | blank s hs => exact fun c hc => hb c (hs c hc)
  | token s w rest ts hs hw hi hr _ ih =>
    intro c hc
    rcases List.mem_append.1 hc with hc | hc
    · rcases List.mem_append.1 hc with hc | hc
      · exact hb c (hs c hc)
      · simpa using (hi c hc).2
    · exact ih c hc

private theorem words_stripCr (line : List Char) : words (stripCr line) = words line := by
  simp only [stripCr]
  split
  · rename_i h
    have h1 : line = line.dropLast ++ ['\r'] := by
      have hne : line ≠ [] := by rintro rfl; simp at h
      have := List.dropLast_append_getLast hne
      rw [List.getLast?_eq_some_getLast hne] at h
      rw [Option.some.inj h] at this
      exact this.symm
    conv_rhs => rw [h1]
    exact (words_snoc '\r' _ (by decide)).symm
  · rfl

private theorem words_lines (tss : List (List (List Char))) (text : List Char)
    (h : Text tss text) : (lines text).map words = tss := by
  induction h with
  | nil => rfl
  | last line ts hne hl =>
    rw [lines, pieces_clean _ line (line_no_newline ts line hl)]
    cases line with
    | nil => exact absurd rfl hne
    | cons a b => simp [linesOfPieces, words_line ts _ hl]
  | line line rest ts tss hl _ ih =>
    have h1 : lines (line ++ '\n' :: rest) = stripCr line :: lines rest := by
      rw [lines, pieces_clean_sep _ line '\n' rest (line_no_newline ts line hl) (by decide), lines]
      cases h : pieces (· == '\n') rest with
      | nil => exact absurd h (pieces_ne_nil _ rest)
      | cons p ps => rfl
    rw [h1, List.map_cons, ih, words_stripCr, words_line ts line hl]

private theorem line_exists (line : List Char) (h : '\n' ∉ line) :
    ∃ ts : List (List Char), Line ts line := by
  induction line with
  | nil => exact ⟨[], .blank [] (by simp)⟩
  | cons c l ih =>
    obtain ⟨ts, hl⟩ := ih (fun h1 => h (List.mem_cons_of_mem _ h1))
    have hcn : c ≠ '\n' := fun h1 => h (h1 ▸ List.mem_cons_self)
    by_cases hc : Blank c
    · cases hl with
      | blank s hs => exact ⟨[], .blank _ (by
          intro d hd
          rcases List.mem_cons.1 hd with rfl | hd
          · exact hc
          · exact hs d hd)⟩
      | token s w rest ts hs hw hi hr hl =>
        refine ⟨w :: ts, ?_⟩
        have := Line.token (c :: s) w rest ts (by
          intro d hd
          rcases List.mem_cons.1 hd with rfl | hd
          · exact hc
          · exact hs d hd) hw hi hr hl
        simpa using this
    · cases hl with
      | blank s hs =>
        refine ⟨[c] :: [], ?_⟩
        have := Line.token [] [c] l [] (by simp) (by simp) (by simpa using ⟨hc, hcn⟩)
          (by intro d hd; exact hs d (List.mem_of_mem_head? hd)) (.blank l hs)
        simpa using this
      | token s w rest ts hs hw hi hr hl =>
        cases s with
        | nil =>
          refine ⟨(c :: w) :: ts, ?_⟩
          have := Line.token [] (c :: w) rest ts (by simp) (by simp) (by
            intro d hd
            rcases List.mem_cons.1 hd with rfl | hd
            · exact ⟨hc, hcn⟩
            · exact hi d hd) hr hl
          simpa using this
        | cons b s =>
          refine ⟨[c] :: w :: ts, ?_⟩
          have := Line.token [] [c] ((b :: s) ++ w ++ rest) (w :: ts) (by simp) (by simp)
            (by simpa using ⟨hc, hcn⟩) (by
              intro d hd
              simp at hd
              subst hd
              exact hs b List.mem_cons_self) (.token (b :: s) w rest ts hs hw hi hr hl)
          simpa using this

/-- C44: every text has a layout in the sense of the specification, so the theorems below cover
every input. -/
theorem C44_every_text_has_layout (text : List Char) :
    ∃ tss : List (List (List Char)), Text tss text ∧ (lines text).map words = tss := by
  suffices h : ∃ tss : List (List (List Char)), Text tss text by
    obtain ⟨tss, h⟩ := h
    exact ⟨tss, h, words_lines tss text h⟩
  induction text with
  | nil => exact ⟨[], .nil⟩
  | cons c l ih =>
    obtain ⟨tss, ht⟩ := ih
    by_cases hc : c = '\n'
    · subst hc
      exact ⟨[] :: tss, .line [] l [] tss (.blank [] (by simp)) ht⟩
    · cases ht with
      | nil =>
        obtain ⟨ts, hl⟩ := line_exists [c] (by simpa using Ne.symm hc)
        exact ⟨[ts], .last _ ts (by simp) hl⟩
      | last line ts hne hl =>
        have hn : '\n' ∉ c :: l := by
          intro h1
          rcases List.mem_cons.1 h1 with h1 | h1
          · exact hc h1.symm
          · have := line_no_newline ts l hl '\n' h1
            exact absurd this (by decide)
        obtain ⟨ts', hl'⟩ := line_exists (c :: l) hn
        exact ⟨[ts'], .last _ ts' (by simp) hl'⟩
      | line line rest ts tss hl ht =>
        have hn : '\n' ∉ c :: line := by
          intro h1
          rcases List.mem_cons.1 h1 with h1 | h1
          · exact hc h1.symm
          · have := line_no_newline ts line hl '\n' h1
            exact absurd this (by decide)
        obtain ⟨ts', hl'⟩ := line_exists (c :: line) hn
        exact ⟨ts' :: tss, .line (c :: line) rest ts' tss hl' ht⟩

/-! ## The parser loops -/

private theorem parseEntries_ok (parse : List Char → Option K) (labels : List String) (i : Nat)
    (ws : List (List Char)) (xs : List K) :
    parseEntries parse labels i ws = .ok xs ↔ List.Forall₂ (fun w x => parse w = some x) ws xs := by
  induction ws generalizing i xs with
  | nil => cases xs <;> simp [parseEntries]
  | cons w ws ih =>
    simp only [parseEntries]
    cases hw : parse w with
    | none => cases xs <;> simp [hw]
    | some x =>
      cases hr : parseEntries parse labels (i + 1) ws with
      | error e =>
        simp only [reduceCtorEq, false_iff]
        intro h
        cases h with
        | cons h1 h2 =>
          rw [(ih (i + 1) _).2 h2] at hr
          cases hr
      | ok ys =>
        constructor
        · intro h
          cases h
          exact .cons hw ((ih (i + 1) ys).1 hr)
        · intro h
          cases h with
          | cons h1 h2 =>
            rw [(ih (i + 1) _).2 h2] at hr
            cases hr
            rw [hw] at h1
            cases h1
            rfl

private theorem parseEntries_error (parse : List Char → Option K) (labels : List String) (i : Nat)
    (ws : List (List Char)) (e : ParseError) :
    parseEntries parse labels i ws = .error e ↔
      ∃ (a : List (List Char)) (w : List Char) (b : List (List Char)), ws = a ++ w :: b ∧
        (∀ v ∈ a, ∃ x : K, parse v = some x) ∧ parse w = none ∧
        e = .float w (labels.getD (i + a.length) "unlabeled entry") := by
  induction ws generalizing i with
  | nil => simp [parseEntries]
  | cons w ws ih =>
    simp only [parseEntries]
    cases hw : parse w with
    | none =>
      constructor
      · intro h
        cases h
        exact ⟨[], w, ws, rfl, by simp, hw, rfl⟩
      · rintro ⟨a, v, b, h1, h2, h3, h4⟩
        cases a with
        | nil =>
          simp only [List.nil_append, List.cons.injEq] at h1
          obtain ⟨rfl, rfl⟩ := h1
          rw [h4]; rfl
        | cons u a =>
          simp only [List.cons_append, List.cons.injEq] at h1
          obtain ⟨rfl, rfl⟩ := h1
          obtain ⟨x, hx⟩ := h2 w List.mem_cons_self
          rw [hw] at hx; cases hx
    | some x =>
      have key : (∃ (a : List (List Char)) (v : List Char) (b : List (List Char)),
          w :: ws = a ++ v :: b ∧ (∀ u ∈ a, ∃ x : K, parse u = some x) ∧ parse v = none ∧
          e = .float v (labels.getD (i + a.length) "unlabeled entry")) ↔
          parseEntries parse labels (i + 1) ws = .error e := by
        rw [ih]
        constructor
        · rintro ⟨a, v, b, h1, h2, h3, h4⟩
          cases a with
          | nil =>
            simp only [List.nil_append, List.cons.injEq] at h1
            obtain ⟨rfl, rfl⟩ := h1
            rw [hw] at h3; cases h3
          | cons u a =>
            simp only [List.cons_append, List.cons.injEq] at h1
            obtain ⟨rfl, rfl⟩ := h1
            refine ⟨a, v, b, rfl, fun u hu => h2 u (List.mem_cons_of_mem _ hu), h3, ?_⟩
            rw [h4, List.length_cons]
            congr 2; omega
        · rintro ⟨a, v, b, rfl, h2, h3, h4⟩
          refine ⟨w :: a, v, b, rfl, ?_, h3, ?_⟩
          · intro u hu
            rcases List.mem_cons.1 hu with rfl | hu
            · exact ⟨x, hw⟩
            · exact h2 u hu
          · rw [h4, List.length_cons]
            congr 2; omega
      rw [key]
      cases hr : parseEntries parse labels (i + 1) ws with
      | error e' => simp
      | ok ys => simp

/-- The entries of a line that parse as one row: all tokens are numbers and there are `n` of
them. -/
private def Row (parse : List Char → Option K) (n : Nat) (ts : List (List Char)) (xs : List K) :
    Prop := List.Forall₂ (fun w x => parse w = some x) ts xs ∧ xs.length = n

/-- What is wrong with a line. -/
private def Bad (parse : List Char → Option K) (labels : List String) (n : Nat)
    (ts : List (List Char)) (e : ParseError) : Prop :=
  (∃ xs : List K, List.Forall₂ (fun w x => parse w = some x) ts xs ∧ xs.length ≠ n ∧
      e = .entries xs.length n) ∨
  (∃ (a : List (List Char)) (w : List Char) (b : List (List Char)), ts = a ++ w :: b ∧
      (∀ v ∈ a, ∃ x : K, parse v = some x) ∧ parse w = none ∧
      e = .float w (labels.getD a.length "unlabeled entry"))

private theorem row_deterministic (parse : List Char → Option K) (ts : List (List Char))
    (xs ys : List K) (h1 : List.Forall₂ (fun w x => parse w = some x) ts xs)
    (h2 : List.Forall₂ (fun w x => parse w = some x) ts ys) : xs = ys := by
  have a := (parseEntries_ok parse [] 0 ts xs).2 h1
  have b := (parseEntries_ok parse [] 0 ts ys).2 h2
  rw [a] at b
  cases b; rfl

section loop
variable {σ : Type} (parse : List Char → Option K) (labels : List String) (n : Nat)
  (handler : σ → List K → Except ParseError σ) (push : σ → List K → σ)
  (hok : ∀ s xs, xs.length = n → handler s xs = .ok (push s xs))
  (hbad : ∀ s xs, xs.length ≠ n → handler s xs = .error (.entries xs.length n))
include hok hbad

private theorem parseLines_ok (ls : List (List Char)) (s s' : σ) :
    parseLines parse labels handler s ls = .ok s' ↔
      ∃ rows : List (List K), List.Forall₂ (Row parse n)
        ((ls.map words).filter (fun ts => !ts.isEmpty)) rows ∧ s' = rows.foldl push s := by
  induction ls generalizing s with
  | nil =>
    simp only [parseLines, List.map_nil, List.filter_nil, Except.ok.injEq]
    constructor
    · rintro rfl; exact ⟨[], .nil, rfl⟩
    · rintro ⟨rows, h, rfl⟩
      cases h; rfl
  | cons l ls ih =>
    simp only [parseLines, List.map_cons, List.filter_cons]
    cases hw : (words l).isEmpty with
    | true => simpa using ih s
    | false =>
      simp only [Bool.false_eq_true, if_false, Bool.not_false, if_true]
      cases he : parseEntries parse labels 0 (words l) with
      | error e =>
        simp only [reduceCtorEq, false_iff]
        rintro ⟨rows, h, -⟩
        cases h with
        | cons h1 h2 =>
          rw [(parseEntries_ok parse labels 0 _ _).2 h1.1] at he
          cases he
      | ok xs =>
        have hx := (parseEntries_ok parse labels 0 _ _).1 he
        by_cases hn : xs.length = n
        · simp only [hok s xs hn]
          rw [ih]
          constructor
          · rintro ⟨rows, h, rfl⟩
            exact ⟨xs :: rows, .cons ⟨hx, hn⟩ h, rfl⟩
          · rintro ⟨rows, h, rfl⟩
            cases h with
            | cons h1 h2 =>
              have := row_deterministic parse _ _ _ hx h1.1
              subst this
              exact ⟨_, h2, rfl⟩
        · simp only [hbad s xs hn, reduceCtorEq, false_iff]
          rintro ⟨rows, h, -⟩
          cases h with
          | cons h1 h2 =>
            have := row_deterministic parse _ _ _ hx h1.1
            subst this
            exact hn h1.2

private theorem parseLines_error (ls : List (List Char)) (s : σ) (e : ParseError) :
    parseLines parse labels handler s ls = .error e ↔
      ∃ (pre : List (List (List Char))) (ts : List (List Char)) (post : List (List (List Char))),
        (ls.map words).filter (fun ts => !ts.isEmpty) = pre ++ ts :: post ∧
        (∀ p ∈ pre, ∃ xs : List K, Row parse n p xs) ∧ Bad parse labels n ts e := by
  induction ls generalizing s with
  | nil => simp [parseLines]
  | cons l ls ih =>
    simp only [parseLines, List.map_cons, List.filter_cons]
    cases hw : (words l).isEmpty with
    | true => simpa using ih s
    | false =>
      simp only [Bool.false_eq_true, if_false, Bool.not_false, if_true]
      cases he : parseEntries parse labels 0 (words l) with
      | error e' =>
        obtain ⟨a, w, b, h1, h2, h3, h4⟩ := (parseEntries_error parse labels 0 _ _).1 he
        constructor
        · intro h
          cases h
          refine ⟨[], _, _, rfl, by simp, .inr ⟨a, w, b, h1, h2, h3, ?_⟩⟩
          simpa using h4
        · rintro ⟨pre, ts, post, g1, g2, g3⟩
          cases pre with
          | nil =>
            simp only [List.nil_append, List.cons.injEq] at g1
            obtain ⟨g1, -⟩ := g1
            subst g1
            rcases g3 with ⟨xs, g4, -⟩ | ⟨a', w', b', g4, g5, g6, g7⟩
            · rw [(parseEntries_ok parse labels 0 _ _).2 g4] at he
              cases he
            · rw [(parseEntries_error parse labels 0 _ e).2
                ⟨a', w', b', g4, g5, g6, by simpa using g7⟩] at he
              cases he; rfl
          | cons p pre =>
            simp only [List.cons_append, List.cons.injEq] at g1
            obtain ⟨g1, -⟩ := g1
            subst g1
            obtain ⟨xs, g4⟩ := g2 _ List.mem_cons_self
            rw [(parseEntries_ok parse labels 0 _ _).2 g4.1] at he
            cases he
      | ok xs =>
        have hx := (parseEntries_ok parse labels 0 _ _).1 he
        by_cases hn : xs.length = n
        · simp only [hok s xs hn]
          rw [ih]
          constructor
          · rintro ⟨pre, ts, post, g1, g2, g3⟩
            refine ⟨words l :: pre, ts, post, by rw [g1]; rfl, ?_, g3⟩
            intro p hp
            rcases List.mem_cons.1 hp with rfl | hp
            · exact ⟨xs, hx, hn⟩
            · exact g2 p hp
          · rintro ⟨pre, ts, post, g1, g2, g3⟩
            cases pre with
            | nil =>
              exfalso
              simp only [List.nil_append, List.cons.injEq] at g1
              obtain ⟨g1, -⟩ := g1
              subst g1
              rcases g3 with ⟨ys, g4, g5, -⟩ | ⟨a', w', b', g4, g5, g6, g7⟩
              · have := row_deterministic parse _ _ _ hx g4
                subst this
                exact g5 hn
              · rw [(parseEntries_error parse labels 0 _ e).2
                  ⟨a', w', b', g4, g5, g6, by simpa using g7⟩] at he
                cases he
            | cons p pre =>
              simp only [List.cons_append, List.cons.injEq] at g1
              exact ⟨pre, ts, post, g1.2, fun q hq => g2 q (List.mem_cons_of_mem _ hq), g3⟩
        · simp only [hbad s xs hn, Except.error.injEq]
          constructor
          · rintro rfl
            exact ⟨[], _, _, rfl, by simp, .inl ⟨xs, hx, hn, rfl⟩⟩
          · rintro ⟨pre, ts, post, g1, g2, g3⟩
            cases pre with
            | nil =>
              simp only [List.nil_append, List.cons.injEq] at g1
              obtain ⟨g1, -⟩ := g1
              subst g1
              rcases g3 with ⟨ys, g4, g5, g6⟩ | ⟨a', w', b', g4, g5, g6, g7⟩
              · have := row_deterministic parse _ _ _ hx g4
                subst this
                exact g6.symm
              · rw [(parseEntries_error parse labels 0 _ e).2
                  ⟨a', w', b', g4, g5, g6, by simpa using g7⟩] at he
                cases he
            | cons p pre =>
              simp only [List.cons_append, List.cons.injEq] at g1
              obtain ⟨g1, -⟩ := g1
              subst g1
              obtain ⟨ys, g4⟩ := g2 _ List.mem_cons_self
              have := row_deterministic parse _ _ _ hx g4.1
              subst this
              exact absurd g4.2 hn

end loop

private def push2 (s : Rule K) (xs : List K) : Rule K :=
  match xs with
  | [x, y, w] => ⟨s.points ++ [[x, y]], s.weights ++ [w]⟩
  | _ => s

private def push3 (s : Rule K) (xs : List K) : Rule K :=
  match xs with
  | [x, y, z, w] => ⟨s.points ++ [[x, y, z]], s.weights ++ [w]⟩
  | _ => s

private theorem handler2_ok (s : Rule K) (xs : List K) (h : xs.length = 3) :
    handler2 s xs = .ok (push2 s xs) := by
  obtain ⟨x, y, w, rfl⟩ := List.length_eq_three.1 h
  rfl

private theorem handler2_bad (s : Rule K) (xs : List K) (h : xs.length ≠ 3) :
    handler2 s xs = .error (.entries xs.length 3) := by
  match xs, h with
  | [], _ => rfl
  | [_], _ => rfl
  | [_, _], _ => rfl
  | [_, _, _], h => exact absurd rfl h
  | _ :: _ :: _ :: _ :: _, _ => rfl

private theorem handler3_ok (s : Rule K) (xs : List K) (h : xs.length = 4) :
    handler3 s xs = .ok (push3 s xs) := by
  match xs, h with
  | [_, _, _, _], _ => rfl

private theorem handler3_bad (s : Rule K) (xs : List K) (h : xs.length ≠ 4) :
    handler3 s xs = .error (.entries xs.length 4) := by
  match xs, h with
  | [], _ => rfl
  | [_], _ => rfl
  | [_, _], _ => rfl
  | [_, _, _], _ => rfl
  | [_, _, _, _], h => exact absurd rfl h
  | _ :: _ :: _ :: _ :: _ :: _, _ => rfl

/-- C44 (2D, success): `parse2d` succeeds with `r` exactly when each non-blank line consists of three
tokens that parse as numbers `x y w`, and then `r` lists the points `[x, y]` and the weights `w` of
the lines in order. -/
theorem C44_parse2d_ok (parse : List Char → Option K) (tss : List (List (List Char)))
    (text : List Char) (ht : Text tss text) (r : Rule K) :
    parse2d parse text = .ok r ↔
      ∃ rows : List (K × K × K),
        List.Forall₂ (fun ts (p : K × K × K) => ∃ a b c : List Char, ts = [a, b, c] ∧
            parse a = some p.1 ∧ parse b = some p.2.1 ∧ parse c = some p.2.2)
          (tss.filter (· ≠ [])) rows ∧
        r.points = rows.map (fun p => [p.1, p.2.1]) ∧ r.weights = rows.map (fun p => p.2.2) := by
  have hf : tss.filter (fun ts => !ts.isEmpty) = tss.filter (· ≠ []) := by
    apply List.filter_congr
    intro ts _
    cases ts <;> simp
  rw [parse2d, parseLines_ok parse _ 3 handler2 push2 handler2_ok handler2_bad,
    words_lines tss text ht, hf]
  generalize tss.filter (· ≠ []) = L
  have key : ∀ (rows : List (K × K × K)) (s : Rule K),
      (rows.map (fun p => [p.1, p.2.1, p.2.2])).foldl push2 s =
        ⟨s.points ++ rows.map (fun p => [p.1, p.2.1]), s.weights ++ rows.map (fun p => p.2.2)⟩ := by
    intro rows
    induction rows with
    | nil => intro s; simp
    | cons p rows ih => intro s; simp [push2, ih]
  have conv : ∀ rows : List (List K), List.Forall₂ (Row parse 3) L rows →
      ∃ rs : List (K × K × K), rows = rs.map (fun p => [p.1, p.2.1, p.2.2]) ∧
        List.Forall₂ (fun ts (p : K × K × K) => ∃ a b c : List Char, ts = [a, b, c] ∧
            parse a = some p.1 ∧ parse b = some p.2.1 ∧ parse c = some p.2.2) L rs := by
    intro rows h
    induction h with
    | nil => exact ⟨[], rfl, .nil⟩
    | @cons ts xs L rows h1 _ ih =>
      obtain ⟨rs, rfl, ih⟩ := ih
      obtain ⟨h1, h2⟩ := h1
      obtain ⟨x, y, w, rfl⟩ := List.length_eq_three.1 h2
      refine ⟨(x, y, w) :: rs, rfl, .cons ?_ ih⟩
      cases h1 with
      | cons p1 h1 => cases h1 with
        | cons p2 h1 => cases h1 with
          | cons p3 h1 => cases h1 with
            | nil => exact ⟨_, _, _, rfl, p1, p2, p3⟩
  constructor
  · rintro ⟨rows, h, rfl⟩
    obtain ⟨rs, rfl, h'⟩ := conv rows h
    refine ⟨rs, h', ?_, ?_⟩ <;> simp [key]
  · rintro ⟨rs, h, h1, h2⟩
    refine ⟨rs.map (fun p => [p.1, p.2.1, p.2.2]), ?_, ?_⟩
    · rw [List.forall₂_map_right_iff]
      refine h.imp ?_
      rintro ts p ⟨a, b, c, rfl, ha, hb, hc⟩
      exact ⟨.cons ha (.cons hb (.cons hc .nil)), rfl⟩
    · rw [key]
      cases r
      simp_all

/-- C44 (3D, success), as for `parse2d` with four columns `x y z w`. -/
theorem C44_parse3d_ok (parse : List Char → Option K) (tss : List (List (List Char)))
    (text : List Char) (ht : Text tss text) (r : Rule K) :
    parse3d parse text = .ok r ↔
      ∃ rows : List (K × K × K × K),
        List.Forall₂ (fun ts (p : K × K × K × K) => ∃ a b c d : List Char, ts = [a, b, c, d] ∧
            parse a = some p.1 ∧ parse b = some p.2.1 ∧ parse c = some p.2.2.1 ∧
            parse d = some p.2.2.2)
          (tss.filter (· ≠ [])) rows ∧
        r.points = rows.map (fun p => [p.1, p.2.1, p.2.2.1]) ∧
        r.weights = rows.map (fun p => p.2.2.2) := by
  have hf : tss.filter (fun ts => !ts.isEmpty) = tss.filter (· ≠ []) := by
    apply List.filter_congr
    intro ts _
    cases ts <;> simp
  rw [parse3d, parseLines_ok parse _ 4 handler3 push3 handler3_ok handler3_bad,
    words_lines tss text ht, hf]
  generalize tss.filter (· ≠ []) = L
  have key : ∀ (rows : List (K × K × K × K)) (s : Rule K),
      (rows.map (fun p => [p.1, p.2.1, p.2.2.1, p.2.2.2])).foldl push3 s =
        ⟨s.points ++ rows.map (fun p => [p.1, p.2.1, p.2.2.1]),
          s.weights ++ rows.map (fun p => p.2.2.2)⟩ := by
    intro rows
    induction rows with
    | nil => intro s; simp
    | cons p rows ih => intro s; simp [push3, ih]
  have conv : ∀ rows : List (List K), List.Forall₂ (Row parse 4) L rows →
      ∃ rs : List (K × K × K × K), rows = rs.map (fun p => [p.1, p.2.1, p.2.2.1, p.2.2.2]) ∧
        List.Forall₂ (fun ts (p : K × K × K × K) => ∃ a b c d : List Char, ts = [a, b, c, d] ∧
            parse a = some p.1 ∧ parse b = some p.2.1 ∧ parse c = some p.2.2.1 ∧
            parse d = some p.2.2.2) L rs := by
    intro rows h
    induction h with
    | nil => exact ⟨[], rfl, .nil⟩
    | @cons ts xs L rows h1 _ ih =>
      obtain ⟨rs, rfl, ih⟩ := ih
      obtain ⟨h1, h2⟩ := h1
      match xs, h2, h1 with
      | [x, y, z, w], _, h1 =>
        refine ⟨(x, y, z, w) :: rs, rfl, .cons ?_ ih⟩
        cases h1 with
        | cons p1 h1 => cases h1 with
          | cons p2 h1 => cases h1 with
            | cons p3 h1 => cases h1 with
              | cons p4 h1 => cases h1 with
                | nil => exact ⟨_, _, _, _, rfl, p1, p2, p3, p4⟩
  constructor
  · rintro ⟨rows, h, rfl⟩
    obtain ⟨rs, rfl, h'⟩ := conv rows h
    refine ⟨rs, h', ?_, ?_⟩ <;> simp [key]
  · rintro ⟨rs, h, h1, h2⟩
    refine ⟨rs.map (fun p => [p.1, p.2.1, p.2.2.1, p.2.2.2]), ?_, ?_⟩
    · rw [List.forall₂_map_right_iff]
      refine h.imp ?_
      rintro ts p ⟨a, b, c, d, rfl, ha, hb, hc, hd⟩
      exact ⟨.cons ha (.cons hb (.cons hc (.cons hd .nil))), rfl⟩
    · rw [key]
      cases r
      simp_all

private theorem row_iff (parse : List Char → Option K) (n : Nat) (ts : List (List Char)) :
    (∃ xs : List K, Row parse n ts xs) ↔
      ts.length = n ∧ ∀ w ∈ ts, ∃ x : K, parse w = some x := by
  constructor
  · rintro ⟨xs, h1, h2⟩
    refine ⟨by rw [h1.length_eq, h2], ?_⟩
    clear h2
    induction h1 with
    | nil => simp
    | cons h _ ih =>
      intro w hw
      rcases List.mem_cons.1 hw with rfl | hw
      · exact ⟨_, h⟩
      · exact ih w hw
  · rintro ⟨h1, h2⟩
    subst h1
    induction ts with
    | nil => exact ⟨[], .nil, rfl⟩
    | cons w ts ih =>
      obtain ⟨x, hx⟩ := h2 w List.mem_cons_self
      obtain ⟨xs, h3, h4⟩ := ih (fun v hv => h2 v (List.mem_cons_of_mem _ hv))
      exact ⟨x :: xs, .cons hx h3, by simp [h4]⟩

private theorem bad_iff (parse : List Char → Option K) (labels : List String) (n : Nat)
    (ts : List (List Char)) (e : ParseError) :
    Bad parse labels n ts e ↔
      (ts.length ≠ n ∧ (∀ w ∈ ts, ∃ x : K, parse w = some x) ∧ e = .entries ts.length n) ∨
      (∃ (a : List (List Char)) (w : List Char) (b : List (List Char)), ts = a ++ w :: b ∧
        (∀ v ∈ a, ∃ x : K, parse v = some x) ∧ parse w = none ∧
        e = .float w (labels.getD a.length "unlabeled entry")) := by
  refine or_congr ?_ Iff.rfl
  constructor
  · rintro ⟨xs, h1, h2, h3⟩
    have hl := h1.length_eq
    exact ⟨by rw [hl]; exact h2, ((row_iff parse xs.length ts).1 ⟨xs, h1, rfl⟩).2,
      by rw [h3, hl]⟩
  · rintro ⟨h1, h2, h3⟩
    obtain ⟨xs, h4, h5⟩ := (row_iff parse ts.length ts).2 ⟨rfl, h2⟩
    exact ⟨xs, h4, by rw [h5]; exact h1, by rw [h3, h5]⟩

private theorem parse_error (n : Nat) (labels : List String)
    (handler : Rule K → List K → Except ParseError (Rule K)) (push : Rule K → List K → Rule K)
    (hok : ∀ (s : Rule K) xs, xs.length = n → handler s xs = .ok (push s xs))
    (hbad : ∀ (s : Rule K) xs, xs.length ≠ n → handler s xs = .error (.entries xs.length n))
    (parse : List Char → Option K) (tss : List (List (List Char)))
    (text : List Char) (ht : Text tss text) (e : ParseError) :
    parseLines parse labels handler ⟨[], []⟩ (lines text) = .error e ↔
      ∃ (pre : List (List (List Char))) (ts : List (List Char)) (post : List (List (List Char))),
        tss = pre ++ ts :: post ∧ ts ≠ [] ∧
        (∀ p ∈ pre, p = [] ∨ (p.length = n ∧ ∀ w ∈ p, ∃ x : K, parse w = some x)) ∧
        ((ts.length ≠ n ∧ (∀ w ∈ ts, ∃ x : K, parse w = some x) ∧ e = .entries ts.length n) ∨
        (∃ (a : List (List Char)) (w : List Char) (b : List (List Char)), ts = a ++ w :: b ∧
          (∀ v ∈ a, ∃ x : K, parse v = some x) ∧ parse w = none ∧
          e = .float w (labels.getD a.length "unlabeled entry"))) := by
  rw [parseLines_error parse _ n handler push hok hbad, words_lines tss text ht]
  simp only [row_iff, bad_iff]
  clear ht
  induction tss with
  | nil => simp
  | cons t tss ih =>
    rw [List.filter_cons]
    cases t with
    | nil =>
      simp only [List.isEmpty_nil, Bool.not_true, Bool.false_eq_true, if_false]
      rw [ih]
      constructor
      · rintro ⟨pre, ts, post, rfl, h1, h2, h3⟩
        refine ⟨[] :: pre, ts, post, rfl, h1, ?_, h3⟩
        intro p hp
        rcases List.mem_cons.1 hp with rfl | hp
        · exact .inl rfl
        · exact h2 p hp
      · rintro ⟨pre, ts, post, h0, h1, h2, h3⟩
        cases pre with
        | nil =>
          simp only [List.nil_append, List.cons.injEq] at h0
          exact absurd h0.1.symm h1
        | cons p pre =>
          simp only [List.cons_append, List.cons.injEq] at h0
          exact ⟨pre, ts, post, h0.2, h1, fun q hq => h2 q (List.mem_cons_of_mem _ hq), h3⟩
    | cons u t =>
      simp only [List.isEmpty_cons, Bool.not_false, if_true]
      constructor
      · rintro ⟨pre, ts, post, h0, h1, h2⟩
        cases pre with
        | nil =>
          simp only [List.nil_append, List.cons.injEq] at h0
          exact ⟨[], u :: t, tss, rfl, by simp, by simp, by rw [h0.1]; exact h2⟩
        | cons p pre =>
          simp only [List.cons_append, List.cons.injEq] at h0
          obtain ⟨pre', ts', post', g0, g1, g2, g3⟩ := ih.1
            ⟨pre, ts, post, h0.2, fun q hq => h1 q (List.mem_cons_of_mem _ hq), h2⟩
          refine ⟨(u :: t) :: pre', ts', post', by rw [g0]; rfl, g1, ?_, g3⟩
          intro q hq
          rcases List.mem_cons.1 hq with rfl | hq
          · right; rw [h0.1]; exact h1 p List.mem_cons_self
          · exact g2 q hq
      · rintro ⟨pre, ts, post, h0, h1, h2, h3⟩
        cases pre with
        | nil =>
          simp only [List.nil_append, List.cons.injEq] at h0
          exact ⟨[], u :: t, _, rfl, by simp, by rw [h0.1]; exact h3⟩
        | cons p pre =>
          simp only [List.cons_append, List.cons.injEq] at h0
          obtain ⟨pre', ts', post', g0, g1, g2⟩ := ih.2
            ⟨pre, ts, post, h0.2, h1, fun q hq => h2 q (List.mem_cons_of_mem _ hq), h3⟩
          refine ⟨(u :: t) :: pre', ts', post', by rw [g0]; rfl, ?_, g2⟩
          intro q hq
          rcases List.mem_cons.1 hq with rfl | hq
          · rcases h2 p List.mem_cons_self with h | h
            · rw [← h0.1] at h; cases h
            · rw [h0.1]; exact h
          · exact g1 q hq

/-- C44 (2D, failure): `parse2d` fails with `e` exactly when the first faulty non-blank line either
has only numbers but not three of them (`e` carries the number found), or has an unparsable token
(`e` carries the first such token and the name of its column). -/
theorem C44_parse2d_error (parse : List Char → Option K) (tss : List (List (List Char)))
    (text : List Char) (ht : Text tss text) (e : ParseError) :
    parse2d parse text = .error e ↔
      ∃ (pre : List (List (List Char))) (ts : List (List Char)) (post : List (List (List Char))),
        tss = pre ++ ts :: post ∧ ts ≠ [] ∧
        (∀ p ∈ pre, p = [] ∨ (p.length = 3 ∧ ∀ w ∈ p, ∃ x : K, parse w = some x)) ∧
        ((ts.length ≠ 3 ∧ (∀ w ∈ ts, ∃ x : K, parse w = some x) ∧ e = .entries ts.length 3) ∨
        (∃ (a : List (List Char)) (w : List Char) (b : List (List Char)), ts = a ++ w :: b ∧
          (∀ v ∈ a, ∃ x : K, parse v = some x) ∧ parse w = none ∧
          e = .float w
            (["x coordinate", "y coordinate", "weight"].getD a.length "unlabeled entry"))) :=
  parse_error 3 _ handler2 push2 handler2_ok handler2_bad parse tss text ht e

/-- C44 (3D, failure). -/
theorem C44_parse3d_error (parse : List Char → Option K) (tss : List (List (List Char)))
    (text : List Char) (ht : Text tss text) (e : ParseError) :
    parse3d parse text = .error e ↔
      ∃ (pre : List (List (List Char))) (ts : List (List Char)) (post : List (List (List Char))),
        tss = pre ++ ts :: post ∧ ts ≠ [] ∧
        (∀ p ∈ pre, p = [] ∨ (p.length = 4 ∧ ∀ w ∈ p, ∃ x : K, parse w = some x)) ∧
        ((ts.length ≠ 4 ∧ (∀ w ∈ ts, ∃ x : K, parse w = some x) ∧ e = .entries ts.length 4) ∨
        (∃ (a : List (List Char)) (w : List Char) (b : List (List Char)), ts = a ++ w :: b ∧
          (∀ v ∈ a, ∃ x : K, parse v = some x) ∧ parse w = none ∧
          e = .float w (["x coordinate", "y coordinate", "z coordinate", "weight"].getD a.length
            "unlabeled entry"))) :=
  parse_error 4 _ handler3 push3 handler3_ok handler3_bad parse tss text ht e

/-- C44: writing the rows of a rule to a text in any layout (any white space, blank lines, either
line ending) with any printer `fmt` that `parse` inverts, and parsing the text, gives the rule
back. -/
theorem C44_roundtrip2d (parse : List Char → Option K) (fmt : K → List Char)
    (hfmt : ∀ x, parse (fmt x) = some x) (rows : List (K × K × K))
    (tss : List (List (List Char))) (text : List Char) (ht : Text tss text)
    (hrows : tss.filter (· ≠ []) = rows.map (fun p => [fmt p.1, fmt p.2.1, fmt p.2.2])) :
    parse2d parse text =
      .ok ⟨rows.map (fun p => [p.1, p.2.1]), rows.map (fun p => p.2.2)⟩ := by
  rw [C44_parse2d_ok parse tss text ht, hrows]
  refine ⟨rows, ?_, rfl, rfl⟩
  rw [List.forall₂_map_left_iff, List.forall₂_same]
  exact fun p _ => ⟨_, _, _, rfl, hfmt _, hfmt _, hfmt _⟩

/-- C44: the same round trip in 3D. -/
theorem C44_roundtrip3d (parse : List Char → Option K) (fmt : K → List Char)
    (hfmt : ∀ x, parse (fmt x) = some x) (rows : List (K × K × K × K))
    (tss : List (List (List Char))) (text : List Char) (ht : Text tss text)
    (hrows : tss.filter (· ≠ []) =
      rows.map (fun p => [fmt p.1, fmt p.2.1, fmt p.2.2.1, fmt p.2.2.2])) :
    parse3d parse text =
      .ok ⟨rows.map (fun p => [p.1, p.2.1, p.2.2.1]), rows.map (fun p => p.2.2.2)⟩ := by
  rw [C44_parse3d_ok parse tss text ht, hrows]
  refine ⟨rows, ?_, rfl, rfl⟩
  rw [List.forall₂_map_left_iff, List.forall₂_same]
  exact fun p _ => ⟨_, _, _, _, rfl, hfmt _, hfmt _, hfmt _, hfmt _⟩

/-- A toy number format for the examples: the length of a run of `1`. -/
private def unary (w : List Char) : Option Nat :=
  if w.all (· == '1') then some w.length else none

/-- Non-vacuity: a text with blank lines, tabs and a carriage return. -/
example : parse2d unary "1 11\t111\r\n\n  11 1 1".toList =
    .ok ⟨[[1, 2], [2, 1]], [3, 1]⟩ := by decide

example : parse2d unary "1 1 1\n1 x 1\n".toList = .error (.float ['x'] "y coordinate") := by decide
example : parse2d unary "1 1 1 1".toList = .error (.entries 4 3) := by decide
example : parse3d unary "1 1 1 11\n".toList = .ok ⟨[[1, 1, 1]], [2]⟩ := by decide
example : Text [[['1'], ['x']], []] "1 x\n\n".toList := by
  refine .line ['1', ' ', 'x'] ['\n'] _ _ ?_ (.line [] [] _ _ (.blank [] (by simp)) .nil)
  refine .token [] ['1'] [' ', 'x'] [['x']] (by simp) (by simp) ?_ ?_
    (.token [' '] ['x'] [] [] ?_ (by simp) ?_ (by simp) (.blank [] (by simp))) <;>
    simp [Ink, Blank]

/-! ## The build script -/

private theorem matchStem_iff (parseNat : List Char → Option Nat) (stem : List Char) (s n : Nat) :
    matchStem parseNat stem = some (s, n) ↔
      ∃ a b : List Char, stem = a ++ '-' :: b ∧ '-' ∉ a ∧ '-' ∉ b ∧
        parseNat a = some s ∧ parseNat b = some n := by
  have hclean : ∀ l : List Char, '-' ∉ l → ∀ c ∈ l, (c == '-') = false := by
    intro l hl c hc
    simp only [beq_eq_false_iff_ne]
    rintro rfl
    exact hl hc
  by_cases h1 : '-' ∈ stem
  · obtain ⟨a, b, hs, ha⟩ := List.append_of_mem h1 |>.elim fun a h => h.elim fun b h =>
      (⟨a, b, h⟩ : ∃ a b : List Char, stem = a ++ '-' :: b) |> fun _ => by
        have := List.mem_iff_append.1 h1
        obtain ⟨k, hk⟩ : ∃ k, stem.idxOf '-' = k := ⟨_, rfl⟩
        have hlt := List.idxOf_lt_length_iff.2 h1
        refine (⟨stem.take k, stem.drop (k + 1), ?_, ?_⟩ :
          ∃ a b : List Char, stem = a ++ '-' :: b ∧ '-' ∉ a)
        · conv_lhs => rw [← List.take_append_drop k stem]
          congr 1
          rw [List.drop_eq_getElem_cons (by omega)]
          congr 1
          subst hk
          exact List.getElem_idxOf hlt
        · intro hm
          obtain ⟨i, hi, hi'⟩ := List.mem_iff_getElem.1 hm
          rw [List.length_take] at hi
          rw [List.getElem_take] at hi'
          have := List.not_of_lt_findIdx (p := (· == '-')) (xs := stem) (i := i)
            (by change i < stem.idxOf '-'; omega)
          simp [hi'] at this
    have hp := pieces_clean_sep (· == '-') a '-' b (hclean a ha) (by decide)
    by_cases h2 : '-' ∈ b
    · have hlen : ∀ l : List Char, '-' ∈ l → ∃ p q r, pieces (· == '-') l = p :: q :: r := by
        intro l
        induction l with
        | nil => simp
        | cons c l ih =>
          intro hm
          by_cases hc : c = '-'
          · subst hc
            rw [pieces]
            cases h : pieces (· == '-') l with
            | nil => exact absurd h (pieces_ne_nil _ l)
            | cons q r => exact ⟨[], q, r, by simp⟩
          · have hm' : '-' ∈ l := by
              rcases List.mem_cons.1 hm with h | h
              · exact absurd h.symm hc
              · exact h
            obtain ⟨p, q, r, h⟩ := ih hm'
            exact ⟨c :: p, q, r, by rw [pieces, h]; simp [hc, consFirst]⟩
      obtain ⟨p, q, r, h3⟩ := hlen b h2
      rw [matchStem, hs, hp, h3]
      constructor
      · intro h
        simp only at h
        split at h
        · cases h
        · split at h
          · cases h
          · simp at h
      · rintro ⟨a', b', h4, h5, h6, -⟩
        exfalso
        have := pieces_clean_sep (· == '-') a' '-' b' (hclean a' h5) (by decide)
        rw [← h4, hp, h3, pieces_clean _ b' (hclean b' h6)] at this
        simp at this
    · rw [matchStem, hs, hp, pieces_clean _ b (hclean b h2)]
      constructor
      · intro h
        refine ⟨a, b, rfl, ha, h2, ?_⟩
        simp only [List.isEmpty_nil, if_true] at h
        cases h5 : parseNat a with
        | none => rw [h5] at h; cases h
        | some x =>
          cases h6 : parseNat b with
          | none => rw [h5, h6] at h; cases h
          | some y => rw [h5, h6] at h; cases h; exact ⟨rfl, rfl⟩
      · rintro ⟨a', b', h4, h5, h6, h7, h8⟩
        have := pieces_clean_sep (· == '-') a' '-' b' (hclean a' h5) (by decide)
        rw [← h4, hp, pieces_clean _ b (hclean b h2), pieces_clean _ b' (hclean b' h6)] at this
        simp only [List.cons.injEq, and_true] at this
        obtain ⟨rfl, rfl⟩ := this
        simp [h7, h8]
  · rw [matchStem, pieces_clean _ stem (hclean stem h1)]
    constructor
    · intro h; cases h
    · rintro ⟨a, b, rfl, -⟩
      exact absurd (by simp) h1

private theorem mem_findRuleFiles (parseNat : List Char → Option Nat) (dir : List File)
    (s n : Nat) (d : List Char) :
    (s, n, d) ∈ findRuleFiles parseNat dir ↔
      ∃ f ∈ dir, RuleFile parseNat f s n ∧ f.data = d := by
  simp only [findRuleFiles, List.mem_filterMap, RuleFile, ← matchStem_iff]
  constructor
  · rintro ⟨f, hf, h⟩
    split at h
    · rename_i he
      obtain ⟨⟨s', n'⟩, h1, h2⟩ := Option.map_eq_some_iff.1 h
      cases h2
      exact ⟨f, hf, ⟨he, h1⟩, rfl⟩
    · cases h
  · rintro ⟨f, hf, ⟨he, h1⟩, rfl⟩
    exact ⟨f, hf, by simp [he, h1]⟩

private theorem loadRule_iff (parser : List Char → Except ParseError (Rule K))
    (s n : Nat) (d : List Char) (p : Nat × Rule K) :
    loadRule parser (s, n, d) = some p ↔
      p.1 = s ∧ parser d = .ok p.2 ∧ p.2.weights.length = n ∧ p.2.points.length = n := by
  obtain ⟨t, r⟩ := p
  simp only [loadRule]
  cases h : parser d with
  | error e => simp
  | ok r' =>
    simp only
    constructor
    · intro h1
      split at h1
      · split at h1
        · cases h1
          refine ⟨rfl, rfl, ?_, ?_⟩ <;> omega
        · cases h1
      · cases h1
    · rintro ⟨rfl, h2, h3, h4⟩
      cases h2
      rw [if_pos h3.symm, if_pos (by omega)]

private theorem mapM_some_forall₂ {α β : Type} (f : α → Option β) (l : List α) (out : List β) :
    l.mapM f = some out ↔ List.Forall₂ (fun a b => f a = some b) l out := by
  induction l generalizing out with
  | nil =>
    simp only [List.mapM_nil, Option.pure_def, Option.some.injEq]
    constructor
    · rintro rfl; exact .nil
    · intro h; cases h; rfl
  | cons a l ih =>
    rw [List.mapM_cons]
    constructor
    · intro h
      cases h1 : f a with
      | none => rw [h1] at h; cases h
      | some b =>
        cases h2 : l.mapM f with
        | none => rw [h1, h2] at h; cases h
        | some bs =>
          rw [h1, h2] at h
          cases h
          exact .cons h1 ((ih bs).1 h2)
    · intro h
      cases h with
      | cons h1 h2 => rw [h1, (ih _).2 h2]; rfl

private theorem maxStrength_spec (rules : List (Nat × Rule K)) (m : Nat)
    (h : maxStrength rules = some m) : (∃ p ∈ rules, p.1 = m) ∧ ∀ p ∈ rules, p.1 ≤ m := by
  induction rules generalizing m with
  | nil => cases h
  | cons r rs ih =>
    simp only [maxStrength] at h
    cases hm : maxStrength rs with
    | none =>
      have : rs = [] := by
        cases rs with
        | nil => rfl
        | cons a b =>
          simp only [maxStrength] at hm
          split at hm <;> cases hm
      rw [hm] at h
      cases h
      subst this
      simp
    | some k =>
      rw [hm] at h
      cases h
      obtain ⟨⟨p, hp, hpk⟩, h2⟩ := ih k hm
      refine ⟨?_, ?_⟩
      · rcases Nat.le_total r.1 k with h | h
        · exact ⟨p, List.mem_cons_of_mem _ hp, by rw [hpk, Nat.max_eq_right h]⟩
        · exact ⟨r, List.mem_cons_self, by rw [Nat.max_eq_left h]⟩
      · intro q hq
        rcases List.mem_cons.1 hq with rfl | hq
        · exact Nat.le_max_left _ _
        · exact Nat.le_trans (h2 q hq) (Nat.le_max_right _ _)

private theorem maxStrength_none (rules : List (Nat × Rule K)) :
    maxStrength rules = none ↔ rules = [] := by
  cases rules with
  | nil => simp [maxStrength]
  | cons a b =>
    simp only [maxStrength, reduceCtorEq, iff_false]
    split <;> simp

/-- The selected rule has the smallest sufficient strength. -/
theorem select_spec (t : Table K) (hnd : (t.arms.map Prod.fst).Nodup)
    (hmax : ∀ p ∈ t.arms, p.1 ≤ t.max) (k : Nat) : ∀ s : Nat, t.max + 1 - s = k →
    (∀ r, selectMinimum t s = some r ↔ ∃ m, (m, r) ∈ t.arms ∧ s ≤ m ∧
      ∀ p ∈ t.arms, s ≤ p.1 → m ≤ p.1) ∧
    (selectMinimum t s = none ↔ ∀ p ∈ t.arms, p.1 < s) := by
  have uniq : ∀ m r r', (m, r) ∈ t.arms → (m, r') ∈ t.arms → r = r' := by
    intro m r r' h1 h2
    have key : ∀ l : List (Nat × Rule K), (l.map Prod.fst).Nodup → (m, r) ∈ l → (m, r') ∈ l →
        r = r' := by
      intro l
      induction l with
      | nil => simp
      | cons a l ih =>
        intro hn h1 h2
        rw [List.map_cons, List.nodup_cons] at hn
        rcases List.mem_cons.1 h1 with h1 | h1 <;> rcases List.mem_cons.1 h2 with h2 | h2
        · rw [← h1] at h2; cases h2; rfl
        · exact absurd (List.mem_map.2 ⟨_, h2, by rw [← h1]⟩) hn.1
        · exact absurd (List.mem_map.2 ⟨_, h1, by rw [← h2]⟩) hn.1
        · exact ih hn.2 h1 h2
    exact key t.arms hnd h1 h2
  induction k with
  | zero =>
    intro s hs
    have hlt : ∀ p ∈ t.arms, p.1 < s := fun p hp => by have := hmax p hp; omega
    have hnone : selectMinimum t s = none := by
      rw [selectMinimum]
      have : t.arms.find? (fun arm => arm.1 == s) = none := by
        rw [List.find?_eq_none]
        intro p hp
        have := hlt p hp
        simp; omega
      rw [this]
      simp only
      rw [if_neg (by omega)]
    refine ⟨?_, by simpa [hnone] using fun a b h => hlt (a, b) h⟩
    intro r
    rw [hnone]
    simp only [reduceCtorEq, false_iff]
    rintro ⟨m, hm, hsm, -⟩
    have := hlt _ hm
    simp at this; omega
  | succ k ih =>
    intro s hs
    obtain ⟨ih1, ih2⟩ := ih (s + 1) (by omega)
    cases hf : t.arms.find? (fun arm => arm.1 == s) with
    | some arm =>
      have hsel : selectMinimum t s = some arm.2 := by rw [selectMinimum, hf]
      have hmem := List.mem_of_find?_eq_some hf
      have harm : arm.1 = s := by simpa using List.find?_some hf
      rw [hsel]
      refine ⟨?_, ?_⟩
      · intro r
        constructor
        · intro h
          cases h
          exact ⟨s, by rw [← harm]; exact hmem, Nat.le_refl _, fun p _ h => h⟩
        · rintro ⟨m, hm, hsm, hmin⟩
          have := hmin arm hmem (by omega)
          have : m = s := by omega
          subst this
          rw [uniq m r arm.2 hm (by rw [← harm]; exact hmem)]
      · simp only [reduceCtorEq, false_iff]
        intro h
        have := h arm hmem
        omega
    | none =>
      have hsel : selectMinimum t s = selectMinimum t (s + 1) := by
        conv_lhs => rw [selectMinimum, hf]
        simp only
        rw [if_pos (by omega)]
      have hne : ∀ p ∈ t.arms, p.1 ≠ s := by
        intro p hp
        have := List.find?_eq_none.1 hf p hp
        simpa using this
      rw [hsel]
      refine ⟨?_, ?_⟩
      · intro r
        rw [ih1]
        constructor
        · rintro ⟨m, hm, hsm, hmin⟩
          refine ⟨m, hm, by omega, ?_⟩
          intro p hp hsp
          have := hne p hp
          exact hmin p hp (by omega)
        · rintro ⟨m, hm, hsm, hmin⟩
          have : m ≠ s := hne _ hm
          exact ⟨m, hm, by omega, fun p hp hsp => hmin p hp (by omega)⟩
      · rw [ih2]
        constructor
        · intro h p hp
          have := h p hp
          have := hne p hp
          omega
        · intro h p hp
          have := h p hp
          omega

private theorem mem_arms (parser : List Char → Except ParseError (Rule K))
    (parseNat : List Char → Option Nat) (dir : List File) (t : Table K)
    (h : generate parser parseNat dir = some t) :
    (t.arms.map Prod.fst).Nodup ∧ (∀ p ∈ t.arms, p.1 ≤ t.max) ∧
    (∀ m r, (m, r) ∈ t.arms ↔ ∃ f ∈ dir, ∃ n, RuleFile parseNat f m n ∧ parser f.data = .ok r) ∧
    (∀ f ∈ dir, ∀ m n, RuleFile parseNat f m n → ∃ r, (m, r) ∈ t.arms) := by
  simp only [generate, loadRules] at h
  cases hl : (findRuleFiles parseNat dir).mapM (loadRule parser) with
  | none => rw [hl] at h; cases h
  | some out =>
    rw [hl] at h
    simp only [Option.map_some] at h
    generalize hso : stableSort (fun a b : Nat × Rule K => decide (a.1 ≤ b.1)) out = so at h
    have hperm : so.Perm out := hso ▸ stableSort_perm _ out
    cases hm : maxStrength so with
    | none => rw [hm] at h; cases h
    | some m =>
      rw [hm] at h
      simp only at h
      split at h
      · rename_i hnd
        cases h
        have hF := (mapM_some_forall₂ _ _ _).1 hl
        have hlen : ∀ q ∈ findRuleFiles parseNat dir, ∃ p ∈ out, loadRule parser q = some p := by
          clear hl
          generalize findRuleFiles parseNat dir = L at hF
          clear hso hperm
          induction hF with
          | nil => simp
          | cons h1 _ ih =>
            intro q hq
            rcases List.mem_cons.1 hq with rfl | hq
            · exact ⟨_, List.mem_cons_self, h1⟩
            · obtain ⟨p, hp, hp'⟩ := ih q hq
              exact ⟨p, List.mem_cons_of_mem _ hp, hp'⟩
        have hrev : ∀ p ∈ out, ∃ q ∈ findRuleFiles parseNat dir, loadRule parser q = some p := by
          clear hl hlen
          generalize findRuleFiles parseNat dir = L at hF
          clear hso hperm
          induction hF with
          | nil => simp
          | cons h1 _ ih =>
            intro q hq
            rcases List.mem_cons.1 hq with rfl | hq
            · exact ⟨_, List.mem_cons_self, h1⟩
            · obtain ⟨p, hp, hp'⟩ := ih q hq
              exact ⟨p, List.mem_cons_of_mem _ hp, hp'⟩
        refine ⟨hnd, (maxStrength_spec so m hm).2, ?_, ?_⟩
        · intro k r
          rw [hperm.mem_iff]
          constructor
          · intro hk
            obtain ⟨⟨s, n, d⟩, hq, hq'⟩ := hrev _ hk
            obtain ⟨h1, h2, -⟩ := (loadRule_iff parser s n d (k, r)).1 hq'
            obtain ⟨f, hf, hf1, hf2⟩ := (mem_findRuleFiles parseNat dir s n d).1 hq
            simp only at h1 h2
            subst h1
            exact ⟨f, hf, n, hf1, by rw [hf2]; exact h2⟩
          · rintro ⟨f, hf, n, hf1, hf2⟩
            obtain ⟨⟨k', r'⟩, hp, hp'⟩ := hlen (k, n, f.data)
              ((mem_findRuleFiles parseNat dir k n f.data).2 ⟨f, hf, hf1, rfl⟩)
            obtain ⟨h1, h2, -⟩ := (loadRule_iff parser k n f.data (k', r')).1 hp'
            simp only at h1 h2
            rw [hf2] at h2
            cases h2
            subst h1
            exact hp
        · intro f hf k n hf1
          obtain ⟨⟨k', r'⟩, hp, hp'⟩ := hlen (k, n, f.data)
            ((mem_findRuleFiles parseNat dir k n f.data).2 ⟨f, hf, hf1, rfl⟩)
          obtain ⟨h1, -⟩ := (loadRule_iff parser k n f.data (k', r')).1 hp'
          simp only at h1
          subst h1
          exact ⟨r', hperm.mem_iff.2 hp⟩
      · cases h

/-- C43: for every directory of rule files the build accepts and every request `s`, the selection
returns the content of the rule file of smallest strength not below `s`. -/
theorem C43_select_minimum (parser : List Char → Except ParseError (Rule K))
    (parseNat : List Char → Option Nat) (dir : List File) (t : Table K)
    (h : generate parser parseNat dir = some t) (s : Nat) (r : Rule K) :
    selectMinimum t s = some r ↔
      ∃ f ∈ dir, ∃ m n, RuleFile parseNat f m n ∧ parser f.data = .ok r ∧ s ≤ m ∧
        ∀ g ∈ dir, ∀ m' n', RuleFile parseNat g m' n' → s ≤ m' → m ≤ m' := by
  obtain ⟨h1, h2, h3, h4⟩ := mem_arms parser parseNat dir t h
  rw [(select_spec t h1 h2 _ s rfl).1 r]
  constructor
  · rintro ⟨m, hm, hsm, hmin⟩
    obtain ⟨f, hf, n, hf1, hf2⟩ := (h3 m r).1 hm
    refine ⟨f, hf, m, n, hf1, hf2, hsm, ?_⟩
    intro g hg m' n' hg' hsm'
    obtain ⟨r', hr'⟩ := h4 g hg m' n' hg'
    exact hmin _ hr' hsm'
  · rintro ⟨f, hf, m, n, hf1, hf2, hsm, hmin⟩
    refine ⟨m, (h3 m r).2 ⟨f, hf, n, hf1, hf2⟩, hsm, ?_⟩
    rintro ⟨m', r'⟩ hp hsp
    obtain ⟨g, hg, n', hg1, -⟩ := (h3 m' r').1 hp
    exact hmin g hg m' n' hg1 hsp

/-- C43: `NoRuleAvailable` is returned exactly when every rule file is weaker than requested. -/
theorem C43_no_rule (parser : List Char → Except ParseError (Rule K))
    (parseNat : List Char → Option Nat) (dir : List File) (t : Table K)
    (h : generate parser parseNat dir = some t) (s : Nat) :
    selectMinimum t s = none ↔
      ∀ f ∈ dir, ∀ m n, RuleFile parseNat f m n → m < s := by
  obtain ⟨h1, h2, h3, h4⟩ := mem_arms parser parseNat dir t h
  rw [(select_spec t h1 h2 _ s rfl).2]
  constructor
  · intro h f hf m n hf1
    obtain ⟨r, hr⟩ := h4 f hf m n hf1
    exact h _ hr
  · rintro h ⟨m, r⟩ hp
    obtain ⟨f, hf, n, hf1, -⟩ := (h3 m r).1 hp
    exact h f hf m n hf1

private theorem matchStem_none (parseNat : List Char → Option Nat) (f : File)
    (he : f.ext = some "txt") : matchStem parseNat f.stem = none ↔
      ∀ s n, ¬ RuleFile parseNat f s n := by
  constructor
  · intro h s n hr
    rw [(matchStem_iff parseNat f.stem s n).2 hr.2] at h
    cases h
  · intro h
    cases hm : matchStem parseNat f.stem with
    | none => rfl
    | some p => exact absurd ⟨he, (matchStem_iff parseNat f.stem p.1 p.2).1 hm⟩ (h p.1 p.2)

private theorem find_pairwise (parseNat : List Char → Option Nat) (dir : List File) :
    ((findRuleFiles parseNat dir).map Prod.fst).Nodup ↔
      dir.Pairwise (fun f g => ∀ m n m' n', RuleFile parseNat f m n → RuleFile parseNat g m' n' →
        m ≠ m') := by
  induction dir with
  | nil => simp [findRuleFiles]
  | cons f dir ih =>
    have hcons : findRuleFiles parseNat (f :: dir) =
        (if f.ext = some "txt" then
          ((matchStem parseNat f.stem).map fun p => (p.1, p.2, f.data)).toList else []) ++
          findRuleFiles parseNat dir := by
      simp only [findRuleFiles, List.filterMap_cons]
      split
      · rename_i h
        split at h
        · rw [if_pos ‹_›, h]; rfl
        · rw [if_neg ‹_›]; rfl
      · rename_i h
        split at h
        · rw [if_pos ‹_›, h]; rfl
        · cases h
    rw [List.pairwise_cons, ← ih, hcons]
    by_cases he : f.ext = some "txt"
    · rw [if_pos he]
      cases hm : matchStem parseNat f.stem with
      | none =>
        have := (matchStem_none parseNat f he).1 hm
        simp only [Option.map_none, Option.toList_none, List.nil_append]
        exact ⟨fun h => ⟨fun g _ m n m' n' h1 => absurd h1 (this m n), h⟩, fun h => h.2⟩
      | some p =>
        have hp : RuleFile parseNat f p.1 p.2 := ⟨he, (matchStem_iff parseNat f.stem p.1 p.2).1 hm⟩
        simp only [Option.map_some, Option.toList_some, List.cons_append, List.nil_append,
          List.map_cons, List.nodup_cons]
        refine and_congr ?_ Iff.rfl
        constructor
        · intro h g hg m n m' n' h1 h2 h3
          apply h
          have : matchStem parseNat f.stem = some (m, n) := (matchStem_iff parseNat f.stem m n).2 h1.2
          rw [hm] at this
          cases this
          subst h3
          exact List.mem_map.2 ⟨(m, n', g.data),
            (mem_findRuleFiles parseNat dir m n' g.data).2 ⟨g, hg, h2, rfl⟩, rfl⟩
        · intro h h1
          obtain ⟨⟨m', n', d⟩, hq, hq'⟩ := List.mem_map.1 h1
          obtain ⟨g, hg, hg1, -⟩ := (mem_findRuleFiles parseNat dir m' n' d).1 hq
          exact h g hg p.1 p.2 m' n' hp hg1 hq'.symm
    · rw [if_neg he, List.nil_append]
      exact ⟨fun h => ⟨fun g _ m n m' n' h1 => absurd h1.1 he, h⟩, fun h => h.2⟩

/-- C43: which directories the build accepts: there is a rule file, every rule file parses and has
as many points and weights as its name says, and no two rule files have the same strength.  Files
whose names do not have the form `<strength>-<size>.txt` play no role. -/
theorem C43_build_succeeds (parser : List Char → Except ParseError (Rule K))
    (parseNat : List Char → Option Nat) (dir : List File) :
    (∃ t, generate parser parseNat dir = some t) ↔
      (∃ f ∈ dir, ∃ m n, RuleFile parseNat f m n) ∧
      (∀ f ∈ dir, ∀ m n, RuleFile parseNat f m n →
        ∃ r, parser f.data = .ok r ∧ r.weights.length = n ∧ r.points.length = n) ∧
      dir.Pairwise (fun f g => ∀ m n m' n', RuleFile parseNat f m n → RuleFile parseNat g m' n' →
        m ≠ m') := by
  rw [← find_pairwise]
  simp only [generate, loadRules]
  have hall : (∃ out, (findRuleFiles parseNat dir).mapM (loadRule parser) = some out) ↔
      (∀ f ∈ dir, ∀ m n, RuleFile parseNat f m n →
        ∃ r, parser f.data = .ok r ∧ r.weights.length = n ∧ r.points.length = n) := by
    have h1 : (∀ f ∈ dir, ∀ m n, RuleFile parseNat f m n →
        ∃ r, parser f.data = .ok r ∧ r.weights.length = n ∧ r.points.length = n) ↔
        ∀ q ∈ findRuleFiles parseNat dir, ∃ p, loadRule parser q = some p := by
      constructor
      · rintro h ⟨s, n, d⟩ hq
        obtain ⟨f, hf, hf1, hf2⟩ := (mem_findRuleFiles parseNat dir s n d).1 hq
        obtain ⟨r, h1, h2, h3⟩ := h f hf s n hf1
        exact ⟨(s, r), (loadRule_iff parser s n d (s, r)).2 ⟨rfl, by rw [← hf2]; exact h1, h2, h3⟩⟩
      · intro h f hf m n hf1
        obtain ⟨p, hp⟩ := h (m, n, f.data)
          ((mem_findRuleFiles parseNat dir m n f.data).2 ⟨f, hf, hf1, rfl⟩)
        exact ⟨p.2, ((loadRule_iff parser m n f.data p).1 hp).2⟩
    rw [h1]
    generalize findRuleFiles parseNat dir = L
    simp only [mapM_some_forall₂]
    induction L with
    | nil => exact ⟨fun _ => by simp, fun _ => ⟨[], .nil⟩⟩
    | cons q L ih =>
      constructor
      · rintro ⟨out, h⟩
        cases h with
        | cons h1 h2 =>
          intro q' hq'
          rcases List.mem_cons.1 hq' with rfl | hq'
          · exact ⟨_, h1⟩
          · exact ih.1 ⟨_, h2⟩ q' hq'
      · intro h
        obtain ⟨p, hp⟩ := h q List.mem_cons_self
        obtain ⟨out, ho⟩ := ih.2 (fun q' hq' => h q' (List.mem_cons_of_mem _ hq'))
        exact ⟨p :: out, .cons hp ho⟩
  have hne : (∃ f ∈ dir, ∃ m n, RuleFile parseNat f m n) ↔ findRuleFiles parseNat dir ≠ [] := by
    constructor
    · rintro ⟨f, hf, m, n, h⟩ h1
      have := (mem_findRuleFiles parseNat dir m n f.data).2 ⟨f, hf, h, rfl⟩
      rw [h1] at this
      cases this
    · intro h
      cases hL : findRuleFiles parseNat dir with
      | nil => exact absurd hL h
      | cons q L =>
        obtain ⟨s, n, d⟩ := q
        obtain ⟨f, hf, hf1, -⟩ := (mem_findRuleFiles parseNat dir s n d).1
          (by rw [hL]; exact List.mem_cons_self)
        exact ⟨f, hf, s, n, hf1⟩
  rw [← hall, hne]
  cases hl : (findRuleFiles parseNat dir).mapM (loadRule parser) with
  | none => simp
  | some out =>
    simp only [Option.map_some]
    generalize hso : stableSort (fun a b : Nat × Rule K => decide (a.1 ≤ b.1)) out = so
    have hperm : so.Perm out := hso ▸ stableSort_perm _ out
    have hF := (mapM_some_forall₂ _ _ _).1 hl
    have hfst : out.map Prod.fst = (findRuleFiles parseNat dir).map Prod.fst := by
      clear hl hne hall hso hperm
      generalize findRuleFiles parseNat dir = L at hF
      induction hF with
      | nil => rfl
      | @cons q p L out h1 _ ih =>
        obtain ⟨s, n, d⟩ := q
        rw [List.map_cons, List.map_cons, ih, ((loadRule_iff parser s n d p).1 h1).1]
    have hnd : (so.map Prod.fst).Nodup ↔ ((findRuleFiles parseNat dir).map Prod.fst).Nodup := by
      rw [← hfst]
      exact (hperm.map Prod.fst).nodup_iff
    have hemp : so = [] ↔ findRuleFiles parseNat dir = [] := by
      rw [← List.length_eq_zero_iff, ← List.length_eq_zero_iff, hperm.length_eq, hF.length_eq]
    cases hm : maxStrength so with
    | none =>
      have h0 := hemp.1 ((maxStrength_none so).1 hm)
      simp [h0]
    | some m =>
      have h0 : findRuleFiles parseNat dir ≠ [] := by
        intro h
        rw [hemp.2 h] at hm
        cases hm
      by_cases h1 : (so.map Prod.fst).Nodup
      · simp only [if_pos h1]
        exact ⟨fun _ => ⟨h0, ⟨_, rfl⟩, hnd.1 h1⟩, fun _ => ⟨_, rfl⟩⟩
      · simp only [if_neg h1]
        exact ⟨fun h => by simp at h, fun h => absurd (hnd.2 h.2.2) h1⟩

/-- C43 and C44 together: with the 2D parser, whose points and weights always have equal number, the
selected rule has as many points as weights. -/
theorem C43_selected_rule_is_balanced (parse : List Char → Option K)
    (parseNat : List Char → Option Nat) (dir : List File) (t : Table K)
    (h : generate (parse2d parse) parseNat dir = some t) (s : Nat) (r : Rule K)
    (hr : selectMinimum t s = some r) :
    r.points.length = r.weights.length ∧ ∀ p ∈ r.points, p.length = 2 := by
  obtain ⟨f, -, m, n, -, h1, -⟩ := (C43_select_minimum _ parseNat dir t h s r).1 hr
  obtain ⟨tss, ht, -⟩ := C44_every_text_has_layout f.data
  obtain ⟨rows, -, h2, h3⟩ := (C44_parse2d_ok parse tss f.data ht r).1 h1
  refine ⟨by rw [h2, h3]; simp, ?_⟩
  intro p hp
  rw [h2] at hp
  obtain ⟨q, -, rfl⟩ := List.mem_map.1 hp
  rfl

/-- Non-vacuity: three files (one ignored), requests below, between and above the strengths. -/
private def exampleDir : List File :=
  [⟨"111-1".toList, some "txt", "1 1 111".toList⟩, ⟨"readme".toList, some "txt", "?".toList⟩,
   ⟨"1-11".toList, some "txt", "1 1 1\n1 1 11\n".toList⟩, ⟨"1-1".toList, some "md", []⟩]

example : (generate (parse2d unary) unary exampleDir).map (fun t => (t.arms, t.max)) =
    some ([(1, ⟨[[1, 1], [1, 1]], [1, 2]⟩), (3, ⟨[[1, 1]], [3]⟩)], 3) := by decide

example : selectMinimum ⟨[(1, ⟨[[1, 1], [1, 1]], [1, 2]⟩), (3, ⟨[[1, 1]], [3]⟩)], 3⟩ 2 =
    some (⟨[[1, 1]], [3]⟩ : Rule Nat) := by simp [selectMinimum]

example : selectMinimum (⟨[(1, ⟨[], []⟩), (3, ⟨[], []⟩)], 3⟩ : Table Nat) 4 = none := by
  simp [selectMinimum]

end Fenris.Polyquad
