import Verif.Proofs.Parser.Leaves
import Verif.Proofs.Parser.Locations
import Verif.Props.Lexer
import Verif.Props.Tree

/-!
How returned trees relate to the source text: the order of leaves (C35),
locations (C38), and how much of the source is consumed (C39).
-/

set_option linter.unusedSectionVars false

namespace Esprit

open Lex ReaderSpec Grammar

section Theorems

variable [Env] [LawfulEnv] {s : Str} {st mo : Bool} {tree : Node} {v : Place}

/-- Where the derivation of a list of items, or of a body, ends. -/
def endsAt : {c : Cat} → NT c → Option (List TokenData)
  | _, .items => some followsItems
  | _, .modItems => some [.eof]
  | _, .prologue nt => endsAt nt
  | _, .body nt => endsAt nt
  | _, _ => none

theorem derives_end {c : Cat} {env : Scope} {nt : NT c} {i r : List Token} {x : Ast c}
    (h : Derives (Located s) env nt i r x) :
    ∀ vs, endsAt nt = some vs → ∃ t r', r = t :: r' ∧ t.value ∈ vs := by
  induction h
  case itemsNil h => intro vs hv; cases hv; exact ⟨_, _, rfl, h⟩
  case modItemsNil h => intro vs hv; cases hv; exact ⟨_, _, rfl, by simp [h]⟩
  case itemsCons ih => exact ih
  case modItemsCons ih => exact ih
  case directive ih => exact ih
  case body ih => exact ih
  case prologueEnd ih => exact ih
  all_goals (intro vs hv; cases hv)

/-- The tokens that a derivation has consumed, and the token it ends at. -/
theorem derives_yield {c : Cat} {env : Scope} {nt : NT c} {ops : List Bool} {k : Nat}
    {ts r : List Token} {x : Ast c} {vs : List TokenData}
    (ht : Tokens s 0 true ops ts k) (h : Derives (Located s) env nt ts r x) (hv : endsAt nt = some vs) :
    ∃ ops mine t rest k, Tokens s 0 true ops (mine ++ t :: rest) k ∧ t.value ∈ vs ∧
      Yields mine (x.leaves []) := by
  obtain ⟨t, r', rfl, hv⟩ := derives_end h vs hv
  obtain ⟨m, rfl, hm⟩ := h.leafy (t :: r') [] .refl
  exact ⟨ops, m, t, r', k, ht, hv, hm⟩

/-! ### C35: leaves -/

/-- The tokens of the source begin with tokens that the tree stands for: these
are, in order, the words and literals of the tree, interspersed with silent
tokens (operators, punctuation, keywords).  The token after them cannot start a
statement. -/
theorem C35_leaves (h : Returned s st mo tree) :
    ∃ ops mine t rest k, Tokens s 0 true ops (mine ++ t :: rest) k ∧ t.value ∈ followsItems ∧
      Yields mine (tree.2.leaves []) := by
  cases h with
  | script h =>
    obtain ⟨ops, ts, k, r, ht, hd⟩ := C34_script s _ h
    exact derives_yield ht hd rfl
  | strict h =>
    obtain ⟨ops, ts, k, r, ht, hd⟩ := C34_strict s _ h
    exact derives_yield ht hd rfl
  | module h =>
    obtain ⟨ops, ts, k, r, ht, hd⟩ := C34_module s _ h
    obtain ⟨ops, m, t, rest, k, h1, h2, h3⟩ := derives_yield ht hd rfl
    exact ⟨ops, m, t, rest, k, h1, by simp [List.mem_singleton.1 h2, followsItems], h3⟩
  | program h =>
    obtain ⟨_, _, hx, ops, ts, k, r, ht, hd, -⟩ := C34_program s _ h
    cases hx
    exact derives_yield ht hd rfl

/-! ### C38: locations -/

/-- Every location in a returned tree is present and is a span of the source. -/
theorem C38_locations {y : Node} (h : Returned s st mo tree) (ho : Occurs .top tree v y) :
    ∀ l ∈ y.2.ownLocs, Loc.Within s l := by
  cases h with
  | script h =>
    obtain ⟨ops, ts, k, r, ht, hd⟩ := C34_script s _ h
    exact hd.locs (ht.ordered (Nat.zero_le _)).1 rfl _ _ _ ho
  | strict h =>
    obtain ⟨ops, ts, k, r, ht, hd⟩ := C34_strict s _ h
    exact hd.locs (ht.ordered (Nat.zero_le _)).1 rfl _ _ _ ho
  | module h =>
    obtain ⟨ops, ts, k, r, ht, hd⟩ := C34_module s _ h
    exact hd.locs (ht.ordered (Nat.zero_le _)).1 rfl _ _ _ ho
  | program h =>
    obtain ⟨_, _, hx, ops, ts, k, r, ht, hd, -⟩ := C34_program s _ h
    cases hx
    exact hd.locs (ht.ordered (Nat.zero_le _)).1 rfl _ _ _ ho

/-! ### C39: consumption -/

/-- `module` consumes the source up to its end: the tree stands for all tokens
before the EOF token at the end of the text. -/
theorem C39_module (tree : Module) (h : parseModule s = .ok tree) :
    ∃ ops mine t rest k, Tokens s 0 true ops (mine ++ t :: rest) k ∧ t.value = .eof ∧
      t.location.start.offset = s.length ∧ Yields mine (tree.leaves []) := by
  obtain ⟨ops, ts, k, r, ht, hd⟩ := C34_module s _ h
  obtain ⟨ops, m, t, rest, k, h1, h2, h3⟩ := derives_yield ht hd rfl
  have h2 := List.mem_singleton.1 h2
  obtain ⟨l, hl⟩ := (C04_tokens_exact s _ _).2 ⟨_, h1⟩
  exact ⟨ops, m, t, rest, k, h1, h2,
    (C06_eof_only_at_end s _ _ l hl m.length t (by simp) h2).1, h3⟩

/-- `program` consumes the source up to its end. -/
theorem C39_program (x : Program) (h : program s = .ok x) :
    ∃ checks tree, x = .ambiguous checks tree ∧
      ∃ ops mine t rest k, Tokens s 0 true ops (mine ++ t :: rest) k ∧ t.value = .eof ∧
        t.location.start.offset = s.length ∧ Yields mine (tree.leaves []) := by
  obtain ⟨checks, tree, hx, ops, ts, k, r, ht, hd, t, r', rfl, h2⟩ := C34_program s _ h
  obtain ⟨m, rfl, h3⟩ := hd.leafy (t :: r') [] .refl
  obtain ⟨l, hl⟩ := (C04_tokens_exact s _ _).2 ⟨_, ht⟩
  exact ⟨checks, tree, hx, ops, m, t, r', k, ht, h2,
    (C06_eof_only_at_end s _ _ l hl m.length t (by simp) h2).1, h3⟩

/-- `script` and `strict` stop at the end of the source or at a `}`, `case` or
`default`.  Missing: the last three are errors in a script, and are not
reported (see `C39_fails`). -/
theorem C39_script_partial (tree : Script) (h : script s = .ok tree ∨ strict s = .ok tree) :
    ∃ ops mine t rest k, Tokens s 0 true ops (mine ++ t :: rest) k ∧
      ((t.value = .eof ∧ t.location.start.offset = s.length) ∨
        t.value = .rBrace ∨ t.value = .reserved .case ∨ t.value = .reserved .default) ∧
      Yields mine (tree.leaves []) := by
  have : ∃ st mo, Returned s st mo ⟨_, tree⟩ := by
    rcases h with h | h
    · exact ⟨_, _, .script h⟩
    · exact ⟨_, _, .strict h⟩
  obtain ⟨st, mo, h⟩ := this
  obtain ⟨ops, m, t, rest, k, h1, h2, h3⟩ := C35_leaves h
  refine ⟨ops, m, t, rest, k, h1, ?_, h3⟩
  obtain ⟨l, hl⟩ := (C04_tokens_exact s _ _).2 ⟨_, h1⟩
  simp only [followsItems, List.mem_cons, List.not_mem_nil, or_false] at h2
  rcases h2 with h2 | h2 | h2 | h2
  · exact .inr (.inl h2)
  · exact .inl ⟨h2, (C06_eof_only_at_end s _ _ l hl m.length t (by simp) h2).1⟩
  · exact .inr (.inr (.inl h2))
  · exact .inr (.inr (.inr h2))

end Theorems

section Examples

local instance sourceEnv : Env := asciiEnv true

/-- The property C39 fails for `script` and `strict`: text after a stray `}` (or
`case`, or `default`) is not even read. -/
theorem C39_fails :
    (match script c!"a; } with @ (" with
      | .ok (.body _ ds items) => ds.isEmpty && decide (items.leaves [] = [.word c!"a"])
      | _ => false) = true ∧
    (match strict c!"} with @ (" with
      | .ok (.body _ ds items) => ds.isEmpty && decide (items.leaves [] = [])
      | _ => false) = true ∧
    (script c!"case 1:").isOk = true ∧ (script c!"default").isOk = true := by decide +kernel

/-- `program` and `module` do report it. -/
example : (program c!"a; } with @ (").isErr = true := by decide +kernel
example : (parseModule c!"}").isErr = true := by decide +kernel

/-- The hypotheses of C35 and C38 are met, and the leaves are as expected. -/
example : (match strict c!"'d'; a: for (let x of [1, /r/]) { o = {get p() { return this.q }, 's': true} }" with
    | .ok t => decide (t.leaves [] =
        [.string ⟨some c!"'d'", c!"d"⟩, .word c!"a", .word c!"x",
         .number ⟨some (.decimalInt c!"1" none), F64.ofNat 1⟩,
         .regExp ⟨c!"r", []⟩, .word c!"o", .word c!"p", .word c!"this", .word c!"q",
         .string ⟨some c!"'s'", c!"s"⟩, .word c!"true"])
    | _ => false) = true := by decide +kernel
example : occursIn c!"x = function f(a) { return a + 1 }" (fun y => y.2.ownLocs.length == 2) = true := by
  decide +kernel
example : (parseModule c!"f(x); /* end */ ").isOk = true := by decide +kernel

end Examples

end Esprit
