import Verif.Proofs.Complete.Top
import Verif.Props.Modes
import Verif.Props.Lexer

/-!
Completeness of the parser with respect to the grammar, and unambiguity of the
grammar (C50, C51).

The grammar is that of `Spec/Grammar.lean`, restricted to plain programs (the
field `plain` of `Scope`), with any rules `L` for the locations.
-/

set_option linter.unusedSectionVars false

namespace Esprit

open Lex ReaderSpec Grammar

section Theorems

variable [Env] [LawfulEnv] {s : Str} {ops : List Bool} {ts rest : List Token} {k : Nat}
  {L L' : LocSpec}

theorem outcome_cp {α : Type} {u : Bool} {m : P α} {s : PState} {Q Q' : α → PState → Prop}
    (h : P.cp m s Q) (h' : P.wp u m s Q') : ∃ a s', m s = .ok (a, s') ∧ Q a s' := by
  unfold P.cp at h
  unfold P.wp at h'
  cases hm : m s with
  | ok v => rw [hm] at h; exact ⟨v.1, v.2, rfl, h⟩
  | err e => rw [hm] at h; exact h.elim
  | panic p =>
    rw [hm] at h h'
    obtain ⟨h1, h2, h3⟩ := h
    rcases h' with h' | h' | ⟨_, h'⟩
    · exact (h1 h').elim
    · exact (h2 h').elim
    · exact (h3 h').elim
  | fuel => rw [hm] at h'; exact h'.elim

/-! ### C50: completeness -/

/-- Whenever the grammar of sloppy code derives a tree from tokens of the source,
`script` accepts the source and returns this tree, up to locations and the
origin of semicolons. -/
theorem C50_script (x : Script) (ht : Tokens s 0 true ops ts k)
    (h : Derives L { Scope.script false with plain := true } (.body .items) ts rest x) :
    ∃ y, script s = .ok y ∧ Ast.Similar y x := by
  obtain ⟨y, t, h1, h2⟩ := outcome_cp (cp_parseScript (n := recFuel s) false ht h)
    (wp_parseScript false)
  exact ⟨y, by unfold script; rw [h1]; rfl, (C21_identical_iff y x).1 h2⟩

/-- Whenever the grammar of strict code derives a tree from tokens of the source,
`strict` accepts the source and returns this tree. -/
theorem C50_strict (x : Script) (ht : Tokens s 0 true ops ts k)
    (h : Derives L { Scope.script true with plain := true } (.body .items) ts rest x) :
    ∃ y, strict s = .ok y ∧ Ast.Similar y x := by
  obtain ⟨y, t, h1, h2⟩ := outcome_cp (cp_parseScript (n := recFuel s) true ht h)
    (wp_parseScript true)
  exact ⟨y, by unfold strict; rw [h1]; rfl, (C21_identical_iff y x).1 h2⟩

/-- Whenever the grammar of module code derives a tree from the tokens of the
source, `module` accepts the source and returns this tree. -/
theorem C50_module (x : Module) (ht : Tokens s 0 true ops ts k)
    (h : Derives L { Scope.moduleCode with plain := true } (.body .modItems) ts rest x) :
    ∃ y, parseModule s = .ok y ∧ Ast.Similar y x := by
  obtain ⟨y, t, h1, h2⟩ := outcome_cp (cp_parseModule (n := recFuel s) ht h) wp_parseModule
  exact ⟨y, by unfold parseModule; rw [h1]; rfl, (C21_identical_iff y x).1 h2⟩

/-- Whenever the grammar of sloppy code derives a tree from all the tokens of the
source, `program` accepts the source, and its script is this tree. -/
theorem C50_program (x : Script) (ht : Tokens s 0 true ops ts k)
    (h : Derives L { Scope.script false with plain := true } (.body .items) ts rest x)
    (he : NextIs rest .eof) :
    ∃ checks y, program s = .ok (.ambiguous checks y) ∧ Ast.Similar y x := by
  obtain ⟨y, h1, h2⟩ := C50_script x ht h
  have hc := cp_scriptBody (n := recFuel s) false ht h
  have h3 := body_sim s .script
  unfold bodyRun at h3
  rw [script_eq] at h1
  cases hb : P.scriptBody (P.recOf (recFuel s)) (PState.fromChars s) with
  | ok v =>
    obtain ⟨a, t⟩ := v
    rw [hb] at h3
    obtain ⟨-, -, new, -, h3⟩ := h3
    have h3 : P.scriptBody (P.recOf (recFuel s)) (Mode.script.of (.fromChars s)) =
      .ok (a, Mode.script.of t) := h3
    rw [h3] at h1
    cases h1
    rcases bodyRun_ok hb with h | ⟨tok, h, hv, tl, hl⟩
    · exact ⟨_, _, h, h2⟩
    · exfalso
      have h4 : P.scriptBody (P.recOf (recFuel s)) (scriptState s false) =
        .ok (y, Mode.script.of t) := h3
      unfold P.cp at hc
      rw [h4] at hc
      obtain ⟨_, ⟨⟨_, _, _, _, _, _, _, h5⟩, _, _⟩⟩ := hc
      have h6 : (Mode.script.of t).la = tok :: tl := hl
      obtain ⟨t0, r0, rfl, hv0⟩ := he
      rw [h6] at h5
      obtain ⟨rfl, -⟩ := List.cons.inj h5
      rw [hv0] at hv
      simp at hv
  | err e =>
    rw [hb] at h3
    obtain ⟨e', h3, -⟩ := h3
    rw [h3] at h1; cases h1
  | panic e =>
    rw [hb] at h3
    rcases h3 with h3 | ⟨-, e', h3⟩ <;> rw [h3] at h1 <;> cases h1
  | fuel =>
    rw [hb] at h3
    rcases h3 with h3 | ⟨-, e', h3⟩ <;> rw [h3] at h1 <;> cases h1

/-! ### C51: unambiguity -/

/-- All the trees that the grammar derives from a source, in whatever way it is
divided into tokens, are equal up to locations and the origin of semicolons. -/
theorem C51_script (strict : Bool) (x x' : Script) {ops' : List Bool} {ts' rest' : List Token}
    {k' : Nat} (ht : Tokens s 0 true ops ts k)
    (h : Derives L { Scope.script strict with plain := true } (.body .items) ts rest x)
    (ht' : Tokens s 0 true ops' ts' k')
    (h' : Derives L' { Scope.script strict with plain := true } (.body .items) ts' rest' x') :
    Ast.Similar x x' := by
  rw [← C21_identical_iff]
  cases strict with
  | false =>
    obtain ⟨y, h1, h2⟩ := C50_script x ht h
    obtain ⟨y', h1', h2'⟩ := C50_script x' ht' h'
    rw [h1] at h1'
    cases h1'
    exact ((C21_identical_iff y x).2 h2).symm.trans ((C21_identical_iff y x').2 h2')
  | true =>
    obtain ⟨y, h1, h2⟩ := C50_strict x ht h
    obtain ⟨y', h1', h2'⟩ := C50_strict x' ht' h'
    rw [h1] at h1'
    cases h1'
    exact ((C21_identical_iff y x).2 h2).symm.trans ((C21_identical_iff y x').2 h2')

/-- The same for modules. -/
theorem C51_module (x x' : Module) {ops' : List Bool} {ts' rest' : List Token}
    {k' : Nat} (ht : Tokens s 0 true ops ts k)
    (h : Derives L { Scope.moduleCode with plain := true } (.body .modItems) ts rest x)
    (ht' : Tokens s 0 true ops' ts' k')
    (h' : Derives L' { Scope.moduleCode with plain := true } (.body .modItems) ts' rest' x') :
    Ast.Similar x x' := by
  rw [← C21_identical_iff]
  obtain ⟨y, h1, h2⟩ := C50_module x ht h
  obtain ⟨y', h1', h2'⟩ := C50_module x' ht' h'
  rw [h1] at h1'
  cases h1'
  exact ((C21_identical_iff y x).2 h2).symm.trans ((C21_identical_iff y x').2 h2')

end Theorems

section Examples

local instance completeEnv : Env := asciiEnv true

private def tok (v : TokenData) (i j : Nat) (nl : Bool := false) : Token :=
  ⟨⟨⟨i, 0, i⟩, ⟨j, 0, j⟩⟩, nl, v⟩

private def t0 : Token := tok (.identifier (.string c!"a")) 0 1
private def t1 : Token := tok .slash 1 2
private def t2 : Token := tok (.number ⟨some (.decimalInt c!"2" none), .num false 2⟩) 2 3
private def t3 : Token := tok .eof 3 3

/-- The lexical grammar finds four tokens in `a/2`. -/
private theorem tokens_of :
    ∃ k, Tokens c!"a/2" 0 true [false, true, false, true] [t0, t1, t2, t3] k := by
  letI := asciiEnv_lawful true
  refine (C04_tokens_exact _ _ _).1 ?_
  have h : (match readTokens c!"a/2" [false, true, false, true] with
    | .ok (ts, _) => decide (ts = [t0, t1, t2, t3])
    | _ => false) = true := by decide +kernel
  generalize readTokens c!"a/2" [false, true, false, true] = x at h ⊢
  cases x with
  | ok v => exact ⟨v.2, by rw [← of_decide_eq_true h]⟩
  | err e => cases h
  | panic e => cases h
  | fuel => cases h

private theorem posnAt (k : Nat) (h : k ≤ 3) : PosnAt c!"a/2" k ⟨k, 0, k⟩ := by
  refine ⟨rfl, ?_, 0, Nat.zero_le _, rfl, .inl rfl, ?_⟩
  · have : k = 0 ∨ k = 1 ∨ k = 2 ∨ k = 3 := by omega
    rcases this with rfl | rfl | rfl | rfl <;> decide +kernel
  · intro i _ hi
    have : i = 0 ∨ i = 1 ∨ i = 2 := by omega
    rcases this with rfl | rfl | rfl <;> decide +kernel

private def loc : Loc := some ⟨⟨0, 0, 0⟩, ⟨3, 0, 3⟩⟩

private theorem located : Located c!"a/2" [t0, t1, t2, t3] [t3] loc := by
  refine ⟨_, _, [t0, t1, t2], rfl, by decide, ⟨⟨0, by decide, posnAt 0 (by decide)⟩, ?_, ?_, ?_⟩,
    ⟨⟨3, by decide, posnAt 3 (by decide)⟩, ?_, ?_, ?_⟩, rfl, ?_⟩
  · intro t ht
    simp only [List.drop, List.mem_cons, List.not_mem_nil, or_false] at ht
    rcases ht with rfl | rfl <;> decide
  · rintro t ht -
    cases ht
    exact ⟨true, true, .nil⟩
  · intro t ht
    cases ht
    exact .inl (by decide)
  · intro t ht
    cases ht
  · rintro t ht -
    cases ht
    exact ⟨true, true, .nil⟩
  · intro t ht
    cases ht
    exact .inl (by decide)
  intro t ht
  simp only [List.mem_cons, List.not_mem_nil, or_false] at ht
  rcases ht with rfl | rfl | rfl <;> decide

/-- The expression `a / 2`. -/
private def quotient : Expr :=
  .eBinop (spanLoc (some t0.location) (some t2.location)) ⟨some t1.location, .div⟩
    (.eId ⟨some t0.location, .string c!"a"⟩)
    (.eNumber (some t2.location) ⟨some (.decimalInt c!"2" none), .num false 2⟩)

private def plainScript : Scope := { Scope.script false with plain := true }

private theorem up {inp rest : List Token} {e : Expr} : ∀ (d n : Nat), n + d = 10 →
    Derives (Located c!"a/2") plainScript .unary inp rest e →
    Derives (Located c!"a/2") plainScript (.binary n) inp rest e
  | 0, n, hn, h => by
    have : n = 10 := by omega
    subst this
    exact .binaryUnary h
  | d + 1, n, hn, h => .binaryUp (by omega) (up d (n + 1) (by omega) h)

private theorem down {inp rest : List Token} {e : Expr} : ∀ (d n : Nat), n + d ≤ 10 →
    Derives (Located c!"a/2") plainScript (.binary (n + d)) inp rest e →
    Derives (Located c!"a/2") plainScript (.binary n) inp rest e
  | 0, _, _, h => h
  | d + 1, n, hn, h => .binaryUp (by omega) (down d (n + 1) (by omega) (by
      have : n + (d + 1) = n + 1 + d := by omega
      rwa [this] at h))

private theorem not_symbol (x : Str) : ¬ IsSymbol x .eof := by
  intro h
  have : ∀ p ∈ Lex.punctuators ++ Lex.reservedWords.map (fun p => (p.1, TokenData.reserved p.2)),
      p.2 ≠ .eof := by decide +kernel
  exact this _ h rfl

private theorem no_infix : NoInfix plainScript [t3] :=
  ⟨t3, [], rfl, fun _ h => not_symbol _ h.2.1, fun _ h => not_symbol _ h.2⟩

private theorem no_assign : NoAssign [t3] :=
  ⟨t3, [], rfl, by decide, fun _ h => not_symbol _ h.2⟩

/-- The grammar derives `a/2`: the hypotheses of C50 and C51 are met. -/
private theorem derived : Derives (Located c!"a/2") plainScript (.body .items) [t0, t1, t2, t3] [t3]
    (.body loc [] (.cons (.siStmt (.sExpr loc quotient .inserted)) .nil)) := by
  have h0 : Derives (Located c!"a/2") plainScript .unary [t0, t1, t2, t3] [t1, t2, t3]
      (.eId ⟨some t0.location, .string c!"a"⟩) :=
    .unaryPostfix (.postfixNone ⟨_, _, rfl, by decide⟩ ⟨_, _, rfl, by decide⟩
      (.lhsPrimary (.identifier (.mk rfl ⟨nofun, nofun⟩))))
  have h1 : Derives (Located c!"a/2") plainScript .unary [t2, t3] [t3]
      (.eNumber (some t2.location) ⟨some (.decimalInt c!"2" none), .num false 2⟩) :=
    .unaryPostfix (.postfixNone ⟨_, _, rfl, by decide⟩ ⟨_, _, rfl, by decide⟩
      (.lhsPrimary (.number rfl)))
  have h2 : Derives (Located c!"a/2") plainScript (.binary 9) [t0, t1, t2, t3] [t3] quotient :=
    .binop (op := ⟨some t1.location, .div⟩) (up 1 9 rfl h0)
      ⟨rfl, by unfold IsSymbol; decide +kernel, nofun⟩ (up 0 10 rfl h1)
  have h3 : Derives (Located c!"a/2") (plainScript.withIn true) .expr [t0, t1, t2, t3] [t3] quotient :=
    .exprOne ⟨_, _, rfl, by decide⟩ (.assignNone no_assign
      (.condNone (fun t r h x => by cases h; exact nofun) no_infix ⟨_, _, rfl, by decide⟩
        (down 9 0 (by decide) h2)))
  refine .body (.prologueEnd ?_ ?_ (.itemsCons (.itemStmt (.exprStmt ?_ h3
    (.inserted (by decide) (.inr (.inl rfl))) located)) (.itemsNil (by decide)))) located
  · rintro ⟨t, t2, r, s, h, hv, -⟩
    cases h
    cases hv
  · rintro t r s h hv
    cases h
    cases hv
  · refine ⟨_, _, rfl, by decide, fun _ => ⟨_, _, rfl, by decide, nofun⟩⟩

example : ∃ checks y, program c!"a/2" = .ok (.ambiguous checks y) ∧
    Ast.Similar y (.body loc [] (.cons (.siStmt (.sExpr loc quotient .inserted)) .nil)) :=
  letI := asciiEnv_lawful true
  tokens_of.elim fun _ h => C50_program _ h derived ⟨_, _, rfl, rfl⟩

end Examples

end Esprit
