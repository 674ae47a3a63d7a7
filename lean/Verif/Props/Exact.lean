import Verif.Props.Complete
import Verif.Props.Parser
import Verif.Proofs.Complete.Labels

/-!
The grammar describes exactly what is accepted (C53): for trees in which no statement is labelled twice
with the same name, the grammar that is followed by everything the parser accepts
(C34) derives nothing else.
-/

set_option linter.unusedSectionVars false

namespace Esprit

open Lex ReaderSpec Grammar

section Theorems

variable [Env] [LawfulEnv] {s : Str} {ops : List Bool} {ts rest : List Token} {k : Nat}

theorem derives_plain {c : Cat} {nt : NT c} {env : Scope} {x : Ast c} (ht : Tokens s 0 true ops ts k)
    (h : Derives (Located s) env nt ts rest x) (hp : env.place = Place.top)
    (hx : DistinctLabels x) : Derives (Located s) { env with plain := true } nt ts rest x :=
  h.plain (ht.ordered (Nat.zero_le _)).1 (hp ▸ hx)

theorem distinctLabels_similar {c : Cat} {x y : Ast c} (h : Ast.Similar y x) (hx : DistinctLabels x) :
    DistinctLabels y := by
  rw [← distinctLabels_untrack, (C21_identical_iff y x).2 h, distinctLabels_untrack]
  exact hx

/-! ### What the grammar derives is accepted -/

/-- Whenever the grammar of sloppy code derives a tree with distinct labels from
the tokens of the source, `script` accepts the
source and returns this tree, up to locations and the origin of semicolons. -/
theorem C53_accepts_script (x : Script) (ht : Tokens s 0 true ops ts k)
    (h : Derives (Located s) (Scope.script false) (.body .items) ts rest x) (hx : DistinctLabels x) :
    ∃ y, script s = .ok y ∧ Ast.Similar y x :=
  C50_script x ht (derives_plain ht h rfl hx)

/-- Whenever the grammar of strict code derives a tree with distinct labels from
the tokens of the source, `strict` accepts the
source and returns this tree, up to locations and the origin of semicolons. -/
theorem C53_accepts_strict (x : Script) (ht : Tokens s 0 true ops ts k)
    (h : Derives (Located s) (Scope.script true) (.body .items) ts rest x) (hx : DistinctLabels x) :
    ∃ y, strict s = .ok y ∧ Ast.Similar y x :=
  C50_strict x ht (derives_plain ht h rfl hx)

/-- Whenever the grammar of module code derives a tree with distinct labels from
the tokens of the source, `module` accepts the
source and returns this tree, up to locations and the origin of semicolons. -/
theorem C53_accepts_module (x : Module) (ht : Tokens s 0 true ops ts k)
    (h : Derives (Located s) (Scope.moduleCode) (.body .modItems) ts rest x) (hx : DistinctLabels x) :
    ∃ y, parseModule s = .ok y ∧ Ast.Similar y x :=
  C50_module x ht (derives_plain ht h rfl hx)

/-- The same for `program`, if the derivation uses all tokens. -/
theorem C53_accepts_program (x : Script) (ht : Tokens s 0 true ops ts k)
    (h : Derives (Located s) (Scope.script false) (.body .items) ts rest x) (he : NextIs rest .eof)
    (hx : DistinctLabels x) :
    ∃ checks y, program s = .ok (.ambiguous checks y) ∧ Ast.Similar y x :=
  C50_program x ht (derives_plain ht h rfl hx) he

/-! ### The grammar describes exactly what is accepted -/

/-- A tree with distinct labels is
accepted by `script` if and only if the grammar of sloppy code derives it (up to locations
and the origin of semicolons). -/
theorem C53_exact_script (x : Script) (hx : DistinctLabels x) :
    (∃ y, script s = .ok y ∧ Ast.Similar y x) ↔
      ∃ ops ts k rest y, Tokens s 0 true ops ts k ∧
        Derives (Located s) (Scope.script false) (.body .items) ts rest y ∧ Ast.Similar y x := by
  constructor
  · rintro ⟨y, h, hy⟩
    obtain ⟨ops, ts, k, rest, h1, h2⟩ := C34_script s y h
    exact ⟨ops, ts, k, rest, y, h1, h2, hy⟩
  · rintro ⟨ops, ts, k, rest, y, h1, h2, hy⟩
    obtain ⟨z, h3, hz⟩ := C53_accepts_script y h1 h2 (distinctLabels_similar hy hx)
    refine ⟨z, h3, ?_⟩
    rw [← C21_identical_iff] at hy hz ⊢
    exact hz.trans hy

/-- A tree with distinct labels is
accepted by `strict` if and only if the grammar of strict code derives it (up to locations
and the origin of semicolons). -/
theorem C53_exact_strict (x : Script) (hx : DistinctLabels x) :
    (∃ y, strict s = .ok y ∧ Ast.Similar y x) ↔
      ∃ ops ts k rest y, Tokens s 0 true ops ts k ∧
        Derives (Located s) (Scope.script true) (.body .items) ts rest y ∧ Ast.Similar y x := by
  constructor
  · rintro ⟨y, h, hy⟩
    obtain ⟨ops, ts, k, rest, h1, h2⟩ := C34_strict s y h
    exact ⟨ops, ts, k, rest, y, h1, h2, hy⟩
  · rintro ⟨ops, ts, k, rest, y, h1, h2, hy⟩
    obtain ⟨z, h3, hz⟩ := C53_accepts_strict y h1 h2 (distinctLabels_similar hy hx)
    refine ⟨z, h3, ?_⟩
    rw [← C21_identical_iff] at hy hz ⊢
    exact hz.trans hy

/-- A tree with distinct labels is
accepted by `module` if and only if the grammar of module code derives it (up to locations
and the origin of semicolons). -/
theorem C53_exact_module (x : Module) (hx : DistinctLabels x) :
    (∃ y, parseModule s = .ok y ∧ Ast.Similar y x) ↔
      ∃ ops ts k rest y, Tokens s 0 true ops ts k ∧
        Derives (Located s) (Scope.moduleCode) (.body .modItems) ts rest y ∧ Ast.Similar y x := by
  constructor
  · rintro ⟨y, h, hy⟩
    obtain ⟨ops, ts, k, rest, h1, h2⟩ := C34_module s y h
    exact ⟨ops, ts, k, rest, y, h1, h2, hy⟩
  · rintro ⟨ops, ts, k, rest, y, h1, h2, hy⟩
    obtain ⟨z, h3, hz⟩ := C53_accepts_module y h1 h2 (distinctLabels_similar hy hx)
    refine ⟨z, h3, ?_⟩
    rw [← C21_identical_iff] at hy hz ⊢
    exact hz.trans hy

/-- The same for `program`, which accepts what is derived from all tokens. -/
theorem C53_exact_program (x : Script) (hx : DistinctLabels x) :
    (∃ checks y, program s = .ok (.ambiguous checks y) ∧ Ast.Similar y x) ↔
      ∃ ops ts k rest y, Tokens s 0 true ops ts k ∧
        Derives (Located s) (Scope.script false) (.body .items) ts rest y ∧ NextIs rest .eof ∧
        Ast.Similar y x := by
  constructor
  · rintro ⟨checks, y, h, hy⟩
    obtain ⟨checks', y', h0, ops, ts, k, rest, h1, h2, h3⟩ := C34_program s _ h
    cases h0
    exact ⟨ops, ts, k, rest, y, h1, h2, h3, hy⟩
  · rintro ⟨ops, ts, k, rest, y, h1, h2, he, hy⟩
    obtain ⟨checks, z, h3, hz⟩ := C53_accepts_program y h1 h2 he
      (distinctLabels_similar hy hx)
    refine ⟨checks, z, h3, ?_⟩
    rw [← C21_identical_iff] at hy hz ⊢
    exact hz.trans hy

/-! ### The grammar is unambiguous -/

/-- All trees with distinct labels that the grammar derives from a source, whose
tokens may be read in any way, are equal up to locations and the origin of semicolons. -/
theorem C53_unique_script (strict : Bool) (x x' : Script) {ops' : List Bool}
    {ts' rest' : List Token} {k' : Nat} (ht : Tokens s 0 true ops ts k)
    (h : Derives (Located s) (Scope.script strict) (.body .items) ts rest x) (hx : DistinctLabels x)
    (ht' : Tokens s 0 true ops' ts' k')
    (h' : Derives (Located s) (Scope.script strict) (.body .items) ts' rest' x') (hx' : DistinctLabels x') :
    Ast.Similar x x' :=
  C51_script strict x x' ht (derives_plain ht h rfl hx) ht' (derives_plain ht' h' rfl hx')

/-- The same for modules. -/
theorem C53_unique_module (x x' : Module) {ops' : List Bool}
    {ts' rest' : List Token} {k' : Nat} (ht : Tokens s 0 true ops ts k)
    (h : Derives (Located s) Scope.moduleCode (.body .modItems) ts rest x) (hx : DistinctLabels x)
    (ht' : Tokens s 0 true ops' ts' k')
    (h' : Derives (Located s) Scope.moduleCode (.body .modItems) ts' rest' x') (hx' : DistinctLabels x') :
    Ast.Similar x x' :=
  C51_module x x' ht (derives_plain ht h rfl hx) ht' (derives_plain ht' h' rfl hx')

end Theorems

section Examples

local instance exactEnv : Env := asciiEnv true

/-- `LabelOk`, computed. -/
def labelCheck (w : Place) : Node → Bool
  | ⟨.stmt, .sLabel _ i _⟩ => w.labels.all fun p => decide (p.1 ≠ i.name)
  | _ => true

theorem labelCheck_ok {w : Place} {y : Node} (h : labelCheck w y = true) : LabelOk w y := by
  obtain ⟨c, y⟩ := y
  cases y
  case sLabel l i s =>
    intro b hb
    exact of_decide_eq_true (List.all_eq_true.1 h _ hb) rfl
  all_goals trivial

/-- `LabelOk` at all nodes up to a depth, computed. -/
def labelsCheck : Nat → Place → Node → Bool
  | 0, _, _ => false
  | n + 1, w, y => labelCheck w y && (y.2.kids w).all fun k => labelsCheck n k.1 k.2

theorem labelsCheck_ok : ∀ (n : Nat) {w : Place} {y : Node}, labelsCheck n w y = true → All w y LabelOk
  | 0, _, _, h => by cases h
  | n + 1, _, _, h => by
    obtain ⟨h1, h2⟩ := (Bool.and_eq_true _ _).mp h
    exact All.mk (labelCheck_ok h1) fun k hk => labelsCheck_ok n (List.all_eq_true.1 h2 k hk)

/-- The hypotheses are met, for instance, by a program with two nested labels. -/
example : ∃ (x : Script) (ops : List Bool) (ts rest : List Token) (k : Nat),
    Tokens c!"a: b: while (x) { break a }" 0 true ops ts k ∧
    Derives (Located c!"a: b: while (x) { break a }") (Scope.script false) (.body .items) ts rest x ∧
    DistinctLabels x := by
  letI := asciiEnv_lawful true
  have h : (match script c!"a: b: while (x) { break a }" with
    | .ok x => labelsCheck 12 Place.top ⟨_, x⟩
    | _ => false) = true := by decide +kernel
  cases hx : script c!"a: b: while (x) { break a }" with
  | ok x =>
    rw [hx] at h
    obtain ⟨ops, ts, k, rest, h1, h2⟩ := C34_script _ _ hx
    exact ⟨x, ops, ts, rest, k, h1, h2, labelsCheck_ok 12 h⟩
  | err _ | panic _ | fuel => rw [hx] at h; cases h

/-- With a repeated label the code rejects what the grammar derives: the end of the
inner statement also ends the scope of the outer label. -/
example : (match script c!"a: { a: ; break a }" with
    | .err (.invalidLabel _) => true
    | _ => false) = true ∧
  (match script c!"a: { b: ; break a }" with | .ok _ => true | _ => false) = true := by
  decide +kernel

end Examples

end Esprit
