import Verif.Spec.Infix
import Verif.Spec.Cover
import Verif.Spec.Ast
import Verif.Spec.Env
import Verif.Proofs.Stack
import Verif.Proofs.Cover
import Verif.Proofs.AstAgree
import Verif.Model.Parser.Program

/-!
Grouping of binary expressions (C17), assignment targets and patterns (C19, C20),
untracking (C21) and equality (C22) of syntax trees.
-/

namespace Esprit

/-! ### C17: precedence and associativity -/

/-- The operand `e` followed by the operators and operands `rest` is parsed to a
tree that respects precedence and associativity and has the operands and
operators of the source in source order, and there is exactly one such tree. -/
theorem C17_grouping (e : Expr) (rest : List (Infix × Expr)) :
    ∃ t : OpTree, parseInfix e rest = t.toExpr ∧ t.Grouped ∧
      t.tape = .inl e :: rest.flatMap (fun p => [.inr p.1, .inl p.2]) ∧
      ∀ t' : OpTree, t'.Grouped → t'.tape = t.tape → t' = t := by
  obtain ⟨t, h1, h2, h3⟩ := OpTree.parseInfix_spec e rest
  exact ⟨t, h1, h2, h3, fun t' hg ht => hg.unique h2 ht⟩

section Examples

private def v (c : Char) : Expr := .eId ⟨none, .string [c]⟩
private def bop (t : BinopTag) : Infix := .binop ⟨none, t⟩

/-- `a - b * c - d` is `(a - (b * c)) - d`. -/
example : parseInfix (v 'a') [(bop .minus, v 'b'), (bop .times, v 'c'), (bop .minus, v 'd')] =
    .eBinop none ⟨none, .minus⟩
      (.eBinop none ⟨none, .minus⟩ (v 'a') (.eBinop none ⟨none, .times⟩ (v 'b') (v 'c')))
      (v 'd') := rfl

end Examples

/-! ### C19: assignment targets and patterns -/

/-- A target is an identifier or a member access, and stands for the same source
expression. -/
theorem C19_target (e : Expr) (t : AssignTarget) :
    Cover.intoAssignTarget e = .ok t ↔
      (∃ i, e = .eId i ∧ t = .tId i) ∨
      (∃ l o k, e = .eDot l o k ∧ t = .tDot l o k) ∨
      (∃ l o p, e = .eBrack l o p ∧ t = .tBrack l o p) := by
  constructor
  · intro h
    unfold Cover.intoAssignTarget at h
    split at h <;> cases h
    · exact .inl ⟨_, rfl, rfl⟩
    · exact .inr (.inl ⟨_, _, _, rfl, rfl⟩)
    · exact .inr (.inr ⟨_, _, _, rfl, rfl⟩)
  · rintro (⟨_, rfl, rfl⟩ | ⟨_, _, _, rfl, rfl⟩ | ⟨_, _, _, rfl, rfl⟩) <;> rfl

/-- The conversion to a pattern succeeds exactly on assignable expressions. -/
theorem C19_pattern_exact (e : Expr) :
    (∃ p, Cover.intoAssignPatt e = .ok p) ↔ Patt.Assignable e :=
  ⟨fun ⟨p, h⟩ => (Cover.cover_ok e).sound p h, (Cover.cover_ok e).complete⟩

/-- The pattern denotes the expression it was converted from. -/
theorem C19_pattern_roundtrip (e : Expr) (p : PattTarget) (h : Cover.intoAssignPatt e = .ok p) :
    Patt.sourceExpr p = e :=
  (Cover.cover_ok e).back p h

/-- Different expressions convert to different patterns. -/
theorem C19_pattern_injective (e e' : Expr) (p : PattTarget)
    (h : Cover.intoAssignPatt e = .ok p) (h' : Cover.intoAssignPatt e' = .ok p) : e = e' :=
  (C19_pattern_roundtrip e p h).symm.trans (C19_pattern_roundtrip e' p h')

section Examples

/-- `[a, , [b.c]]` is assignable. -/
example : Patt.Assignable (.eArr none (.ofList [.some (.iExpr (v 'a')), .none,
    .some (.iExpr (.eArr none (.ofList [.some (.iExpr (.eDot none (v 'b') ⟨none, c!"c"⟩))])))])) :=
  .arr (es := [some (v 'a'), none, some _]) (by
    intro e he
    simp only [List.mem_cons, Option.some.injEq, List.not_mem_nil, or_false, reduceCtorEq,
      false_or] at he
    rcases he with rfl | rfl
    · exact .id
    · exact .arr (es := [some (.eDot none (v 'b') ⟨none, c!"c"⟩)]) (by
        intro e he
        simp only [List.mem_cons, Option.some.injEq, List.not_mem_nil, or_false] at he
        subst he
        exact .dot))

/-- `1` is not assignable. -/
example : ¬ Patt.Assignable (.eTrue none) := by rintro ⟨⟩

end Examples

/-! ### C20: rest elements in parsed assignments -/

/-- C20 fails, for every array: a spread element with a location, as the parser
produces, is never converted to a rest element. -/
theorem C20_rejects (l : Loc) (sp : Span) (es : List (Ast (.opt .item))) (r : Expr) :
    ∃ err, Cover.intoAssignPatt (.eArr l (.ofList (es ++ [.some (.iSpread (some sp) r)]))) =
      .error err := by
  cases h : Cover.intoAssignPatt (.eArr l (.ofList (es ++ [.some (.iSpread (some sp) r)]))) with
  | error err => exact ⟨err, rfl⟩
  | ok p =>
    exfalso
    have ha := (Cover.cover_ok _).sound p h
    generalize hz : (Ast.eArr l (.ofList (es ++ [.some (.iSpread (some sp) r)])) : Expr) = z at ha
    cases ha with
    | @arr l' ys hys =>
      injection hz with _ hz
      have hz := congrArg List.getLast? (Ast.ofList_inj hz)
      rw [List.getLast?_map] at hz
      cases hl : ys.getLast? with
      | none => simp [hl] at hz
      | some y => cases y <;> simp [hl, Patt.arrayItem] at hz
    | @arrRest l' ys r' hys hr' =>
      injection hz with _ hz
      have hz := congrArg List.getLast? (Ast.ofList_inj hz)
      simp at hz
    | id => cases hz
    | dot => cases hz
    | brack => cases hz
    | obj _ => cases hz

/-- C20 holds only for spread elements without a location, such as the ones built
from JSON: missing is the acceptance of parsed ones. -/
theorem C20_rest_partial (l : Loc) (es : List (Option Expr)) (r : Expr)
    (hes : ∀ e, some e ∈ es → Patt.Assignable e) (hr : Patt.Assignable r) :
    ∃ p, Cover.intoAssignPatt (.eArr l (.ofList (es.map Patt.arrayItem ++
      [.some (.iSpread none r)]))) = .ok p :=
  (C19_pattern_exact _).2 (.arrRest hes hr)

section Examples

local instance syntaxEnv : Env := asciiEnv true

/-- Whether a parse is rejected with an error. -/
def Res.isErr {ε α : Type} : Res ε α → Bool
  | .err _ => true
  | _ => false

/-- Whether a parse is accepted. -/
def Res.isOk {ε α : Type} : Res ε α → Bool
  | .ok _ => true
  | _ => false

/-- C20 fails: `[...x]=y` is rejected, in all goals, while `[x]=y` is accepted. -/
theorem C20_fails : (script c!"[...x]=y").isErr = true ∧ (strict c!"[...x]=y").isErr = true ∧
    (program c!"[...x]=y").isErr = true ∧ (parseModule c!"[...x]=y").isErr = true ∧
    (script c!"[x]=y").isOk = true := by decide +kernel

end Examples

/-! ### C21: untracking -/

/-- After `untrack` no location is left anywhere in the tree. -/
theorem C21_no_locations {c : Cat} (a : Ast c) : ∀ l ∈ a.untrack.locs, l = none :=
  a.locs_untrack

/-- After `untrack` every semicolon is the canonical explicit one. -/
theorem C21_semis {c : Cat} (a : Ast c) : ∀ s ∈ a.untrack.semis, s = .explicit none :=
  a.semis_untrack

/-- `untrack` is idempotent. -/
theorem C21_idempotent {c : Cat} (a : Ast c) : a.untrack.untrack = a.untrack :=
  (a.similar_untrack.untrack_eq).symm

/-- `untrack` changes only locations and the origin of semicolons. -/
theorem C21_nothing_else {c : Cat} (a : Ast c) : Ast.Similar a a.untrack :=
  a.similar_untrack

/-- Two trees become identical exactly when they differ only in locations and the
origin of semicolons. -/
theorem C21_identical_iff {c : Cat} (a b : Ast c) : a.untrack = b.untrack ↔ Ast.Similar a b :=
  Ast.untrack_eq_iff a b

/-- Both kinds of slots occur: a tree with two locations and an inserted semicolon. -/
example : (Ast.sExpr (some ⟨⟨0, 0, 0⟩, ⟨1, 0, 1⟩⟩) (.eThis (some ⟨⟨0, 0, 0⟩, ⟨1, 0, 1⟩⟩)) .inserted).locs =
    [some ⟨⟨0, 0, 0⟩, ⟨1, 0, 1⟩⟩, some ⟨⟨0, 0, 0⟩, ⟨1, 0, 1⟩⟩] ∧
  (Ast.sExpr none (.eThis none) .inserted).semis = [.inserted] := ⟨rfl, rfl⟩

/-! ### C22: equality -/

/-- `==` identifies exactly the trees that agree up to literal source text, order
of regular expression flags, and omitted versus empty arguments of `new`. -/
theorem C22_exact {c : Cat} (a b : Ast c) : a.eqv b = true ↔ Ast.Agree a b :=
  Ast.eqv_iff a b

/-- `==` is symmetric. -/
theorem C22_symm {c : Cat} (a b : Ast c) : a.eqv b = b.eqv a := by
  rw [Bool.eq_iff_iff, C22_exact, C22_exact]
  exact ⟨.symm, .symm⟩

/-- `==` is transitive. -/
theorem C22_trans {c : Cat} (a b d : Ast c) (h : a.eqv b = true) (h' : b.eqv d = true) :
    a.eqv d = true :=
  (C22_exact a d).2 (((C22_exact a b).1 h).trans ((C22_exact b d).1 h'))

/-- `==` is reflexive on trees without NaN. -/
theorem C22_refl {c : Cat} (a : Ast c) (h : ∀ n ∈ a.numbers, n.value ≠ .nan) :
    a.eqv a = true :=
  (C22_exact a a).2 (.refl h)

/-- A NaN is not equal to itself; `new a` and `new a()` are equal. -/
example : (Ast.eNumber none ⟨none, .nan⟩).eqv (Ast.eNumber none ⟨none, .nan⟩) = false ∧
    (Ast.eNew none (v 'a') .none).eqv (Ast.eNew none (v 'a') (.some .nil)) = true := by
  decide +kernel

example : (Ast.eRegExp none ⟨c!"a", c!"gi"⟩).eqv (Ast.eRegExp none ⟨c!"a", c!"ig"⟩) = true :=
  (C22_exact _ _).2 (.eRegExp rfl (by decide +kernel))

example : (Ast.eRegExp none ⟨c!"a", c!"g"⟩).eqv (Ast.eRegExp none ⟨c!"a", c!"i"⟩) ≠ true := by
  intro h
  cases (C22_exact _ _).1 h
  rename_i h
  exact absurd h (by decide +kernel)

end Esprit
