import Verif.Proofs.LexSwap
import Verif.Spec.Env

/-!
White space and comments: C46.
-/

namespace Esprit

open Lex ReaderSpec

section Theorems

variable [Env] [LawfulEnv]

/-- C46.  What separates two tokens does not matter: replace the text between the `i`-th token of a
source and the token before it (or the beginning of the source) by any other nonempty sequence `w` of
white space, line terminators and comments.  Then the same tokens are read, in the same modes; only
the newline flag of the `i`-th token depends on `w`.

Two restrictions come from the language itself.  A comment cannot be put directly behind `/`, nor
`<!--` directly behind `<`.  And where the new text ends the line of the preceding token (`e'`),
the next token must not be the `--` of `-->`. -/
theorem C46_separators (s : Str) (ops : List Bool) (ts : List Token) (l : Lexer)
    (h : readTokens s ops = .ok (ts, l)) (i : Nat) (t : Token) (ht : ts[i]? = some t)
    (heof : ∀ p ∈ ts.take i, p.value ≠ .eof)
    (w : Str) (e' : Bool) (hne : w ≠ [])
    (hw : Trivia (i == 0) w (s.drop t.location.start.offset) e')
    (hclose : e' = true → ¬ c!"-->" <+: s.drop t.location.start.offset)
    (hprev : ∀ p, (ts.take i).getLast? = some p →
      (p.value = .slash → w.head? ≠ some '/') ∧ (p.value = .lAngle → w.head? ≠ some '<')) :
    ∃ ts' l', readTokens (s.take (prevEnd ts i) ++ w ++ s.drop t.location.start.offset) ops =
        .ok (ts', l') ∧
      ts'.map (·.value) = ts.map (·.value) ∧
      ts'.map (·.newline) = (ts.map (·.newline)).set i (hasNewline w) := by
  obtain ⟨ts', k', e1, e2, -⟩ := separators_tokens s ops ts l h i t ht heof w e' hne hw hclose hprev
  obtain ⟨l', e4⟩ := (readAll_complete e1 (Lexer.At.new _) rfl)
  refine ⟨ts', l', e4, ?_, ?_⟩
  · have h1 := congrArg (List.map Prod.snd) e2
    rw [List.map_map, List.map_set, List.map_map] at h1
    rw [show ts'.map (·.value) = ts'.map (Prod.snd ∘ flags) from rfl, h1]
    refine List.ext_getElem? fun j => ?_
    rw [List.getElem?_set]
    split
    · rename_i hj
      subst hj
      rw [List.getElem?_map, ht]
      have : i < (ts.map (Prod.snd ∘ flags)).length := by
        rw [List.length_map]
        rcases Nat.lt_or_ge i ts.length with h | h
        · exact h
        · rw [List.getElem?_eq_none h] at ht; cases ht
      rw [if_pos this]
      rfl
    · rfl
  · have h1 := congrArg (List.map Prod.fst) e2
    rw [List.map_map, List.map_set, List.map_map] at h1
    exact h1

omit [Env] [LawfulEnv] in
private theorem trivia_append {e e1 e2 : Bool} {w w' y : Str} (h : Trivia e w (w' ++ y) e1)
    (h' : Trivia e1 w' y e2) : Trivia e (w ++ w') y e2 := by
  generalize hz : w' ++ y = z at h
  induction h with
  | nil => exact h'
  | space h1 _ ih => exact .space h1 (ih h' hz)
  | newline h1 _ ih => exact .newline h1 (ih h' hz)
  | line h1 h2 _ ih =>
    rw [List.append_assoc]
    refine .line h1 ?_ (ih h' hz)
    rw [List.append_assoc, hz]
    exact h2
  | block h1 _ ih =>
    rw [List.append_assoc]
    exact .block h1 (ih h' hz)

/-- C46: every comment is skipped, wherever a token could start.  After any tokens and separators
`w` there is a comment `k`: `//` or `<!--` up to the end of the line, `/*` up to the first `*/`, or
`-->` up to the end of the line if no token precedes it on its line (`e`).  Then the next token is the
one that follows the comment, after further separators `w'`. -/
theorem C46_comments_skipped (s : Str) (ops : List Bool) (ts : List Token) (l : Lexer)
    (h : readTokens s ops = .ok (ts, l)) (w k w' x y : Str) (e e' : Bool)
    (hs : s.drop (prevEnd ts ts.length) = w ++ (k ++ (w' ++ (x ++ y))))
    (hw : Trivia ts.isEmpty w (k ++ (w' ++ (x ++ y))) e)
    (hk : (LineComment e k ∧ AtLineEnd (w' ++ (x ++ y))) ∨ BlockComment k)
    (hw' : Trivia e w' (x ++ y) e') (hn : NoTrivia e' (x ++ y))
    (op : Bool) (v : TokenData) (hx : Lexeme op x y v) :
    ∃ t l', readTokens s (ops ++ [op]) = .ok (ts ++ [t], l') ∧ t.value = v ∧
      t.location.start.offset = prevEnd ts ts.length + (w ++ k ++ w').length := by
  have hb := ((readTokens_at h).1.bounded (Nat.zero_le _)).2
  have hl := congrArg List.length hs
  simp only [List.length_drop, List.length_append] at hl
  have hl2 : (w ++ (k ++ w')).length = w.length + (k.length + w'.length) := by simp
  have p1 := posnFrom_spec s (prevEnd ts ts.length + (w ++ (k ++ w')).length) (by omega)
  have p2 := posnFrom_spec s (prevEnd ts ts.length + (w ++ (k ++ w')).length + x.length) (by omega)
  have hkw : Trivia e (k ++ w') (x ++ y) e' := by
    rcases hk with ⟨h1, h2⟩ | h1
    · exact .line h1 h2 hw'
    · exact .block h1 hw'
  obtain ⟨l', hr⟩ := readToken_complete h (op := op)
    (t := ⟨⟨_, _⟩, hasNewline (w ++ (k ++ w')), v⟩)
    ⟨w ++ (k ++ w'), x, y, e', by rw [hs]; simp, trivia_append (by simpa using hw) hkw, hn, hx, rfl,
      p1, p2, rfl⟩
  refine ⟨_, l', hr, rfl, ?_⟩
  rw [List.append_assoc]
  exact p1.offset

/-- C46: `-->` is not a comment if a token precedes it on its line.  After at least one token and
separators without line terminators outside block comments, it is read as the operator `--`. -/
theorem C46_html_close (s : Str) (ops : List Bool) (ts : List Token) (l : Lexer)
    (h : readTokens s ops = .ok (ts, l)) (w y : Str)
    (hs : s.drop (prevEnd ts ts.length) = w ++ (c!"-->" ++ y)) (hne : ts ≠ [])
    (hw : Trivia false w (c!"-->" ++ y) false) (op : Bool) :
    ∃ t l', readTokens s (ops ++ [op]) = .ok (ts ++ [t], l') ∧ t.value = .dec ∧
      t.location.start.offset = prevEnd ts ts.length + w.length := by
  have hb := ((readTokens_at h).1.bounded (Nat.zero_le _)).2
  have hl := congrArg List.length hs
  simp only [List.length_drop, List.length_append] at hl
  have hl2 : c!"-->".length = 3 := rfl
  have p1 := posnFrom_spec s (prevEnd ts ts.length + w.length) (by omega)
  have p2 := posnFrom_spec s (prevEnd ts ts.length + w.length + 2) (by omega)
  have he : ts.isEmpty = false := by
    cases ts with
    | nil => exact absurd rfl hne
    | cons => rfl
  have hlex : Lexeme op c!"--" ('>' :: y) .dec := by
    refine .punctuator (by decide) ?_ (by simp) (by simp)
    have key : ∀ p ∈ punctuators, 2 < p.1.length → p.1.take 2 ≠ c!"--" := by decide +kernel
    intro x' v' hx' hp
    rcases Nat.lt_or_ge 2 x'.length with hlt | hge
    · exfalso
      refine key _ hx' hlt ?_
      obtain ⟨z, hz⟩ := hp
      have := congrArg (List.take 2) hz
      rw [List.take_append_of_le_length (by omega)] at this
      rw [this]; rfl
    · exact hge
  obtain ⟨l', hr⟩ := readToken_complete h (op := op)
    (t := ⟨⟨_, _⟩, hasNewline w, .dec⟩) (k := prevEnd ts ts.length + w.length + 2)
    ⟨w, c!"--", '>' :: y, false, hs, he ▸ hw, by
      refine ⟨?_, ?_, ?_, ?_, by simp⟩
      · intro c hc; simp at hc; subst hc; decide
      all_goals
        rintro ⟨z, hz⟩
        have := congrArg List.head? hz
        simp at this, hlex, rfl, p1, p2, rfl⟩
  exact ⟨_, l', hr, rfl, p1.offset⟩

end Theorems

section Examples

local instance triviaEnv : Env := asciiEnv true
local instance triviaEnvLawful : LawfulEnv := asciiEnv_lawful true

/-- A source on which the separators are changed. -/
example : (readTokens c!"a+b / c" [true, true, true, true, true, true]).map (·.1.map flags) =
    .ok [(false, .identifier (.string c!"a")), (false, .plus), (false, .identifier (.string c!"b")),
      (false, .slash), (false, .identifier (.string c!"c")), (false, .eof)] ∧
  (readTokens c!"a+/* * / */// x\n <!-- b\n --> c\nb / c" [true, true, true, true, true, true]).map
      (·.1.map flags) =
    .ok [(false, .identifier (.string c!"a")), (false, .plus), (true, .identifier (.string c!"b")),
      (false, .slash), (false, .identifier (.string c!"c")), (false, .eof)] := by decide +kernel

/-- The new separator in the example above meets the hypotheses of `C46_separators`. -/
example : Trivia false c!"/* * / */// x\n <!-- b\n --> c\n" c!"b / c" true :=
  .block (k := c!"/* * / */") (.mk (b := c!" * / ") (by decide)) <|
  .line (k := c!"// x") (.slashes (b := c!" x") (by unfold OneLine; decide)) (by intro c hc; simp at hc; subst hc; decide) <|
  .newline (by decide) <| .space (by decide) <|
  .line (k := c!"<!-- b") (.htmlOpen (b := c!" b") (by unfold OneLine; decide)) (by intro c hc; simp at hc; subst hc; decide) <|
  .newline (by decide) <| .space (by decide) <|
  .line (k := c!"--> c") (.htmlClose (b := c!" c") (by unfold OneLine; decide)) (by intro c hc; simp at hc; subst hc; decide) <|
  .newline (by decide) .nil

/-- `-->` after a token, and at the beginning of a line. -/
example : (readTokens c!"x --> y\n--> z" [true, true, true, true, true]).map
      (·.1.map (·.value)) =
    .ok [.identifier (.string c!"x"), .dec, .rAngle, .identifier (.string c!"y"), .eof] := by
  decide +kernel

/-- A line terminator in a block comment sets the newline flag, but does not count for `-->`: here no
token precedes `-->` on its line, and yet it is not a comment. -/
theorem C46_block_comment_newline : (readTokens c!"x /*\n*/ --> y" [true, true]).map
      (·.1.map flags) = .ok [(false, .identifier (.string c!"x")), (true, .dec)] := by
  decide +kernel

end Examples

end Esprit
