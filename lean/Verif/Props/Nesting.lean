import Verif.Proofs.Nesting
import Verif.Proofs.Complete.SemisLex
import Verif.Props.Lexer
import Verif.Props.Parser

/-!
The brackets of an accepted text are balanced (C80), and the tree stands for exactly the semicolons of the
text (C81): none is lost and none is counted twice.

`script` and `strict` stop at the first token that cannot begin a statement (C39), so for them this is about
the tokens before it.
-/

set_option linter.unusedSectionVars false

namespace Esprit

open Lex ReaderSpec Grammar

section Theorems

variable [Env] [LawfulEnv] {s : Str}

private theorem parts {L : LocSpec} {c : Cat} {env : Scope} {nt : NT c} {ts rest : List Token} {x : Ast c}
    (h : Derives L env nt ts rest x) (hn : Nesting.heads nt = 0) :
    ∃ us, ts = us ++ rest ∧ Nested us ∧ semicolons us = x.semicolons := by
  obtain ⟨us, rfl, h1⟩ := Nesting.run h []
  refine ⟨us, rfl, h1, ?_⟩
  have h2 := Nesting.count h
  rw [semicolons, List.filter_append, List.length_append, hn] at h2
  simp only [semicolons] at h2 ⊢
  omega

/-- The lists of items of a module. -/
private def isModule : {c : Cat} → NT c → Bool
  | _, .modItems => true
  | _, .prologue nt | _, .body nt => isModule nt
  | _, _ => false

/-- A module ends at the end of the source. -/
private theorem module_end {L : LocSpec} {c : Cat} {env : Scope} {nt : NT c} {ts rest : List Token} {x : Ast c}
    (h : Derives L env nt ts rest x) : isModule nt = true → NextIs rest .eof := by
  induction h <;> intro hn
  all_goals first
    | (cases hn; done)
    | skip
  case modItemsNil h => exact ⟨_, _, rfl, h⟩
  case modItemsCons ih => exact ih rfl
  case directive ih => exact ih hn
  case prologueEnd ih => exact ih hn
  case body ih => exact ih hn

/-- C80: the tokens of a text accepted by `script`, up to the first one that cannot begin a statement, have
balanced brackets. -/
theorem C80_script {x : Script} (h : script s = .ok x) :
    ∃ ops ts t rest k, Tokens s 0 true ops (ts ++ t :: rest) k ∧ t.value ∈ followsItems ∧ Nested ts := by
  obtain ⟨ops, ts, k, rest, h1, h2⟩ := C34_script s x h
  obtain ⟨t, r, rfl, h3, _⟩ := Semis.ends h2 rfl
  obtain ⟨us, rfl, h4, _⟩ := parts h2 rfl
  exact ⟨ops, us, t, r, k, h1, h3, h4⟩

/-- C80 for strict code. -/
theorem C80_strict {x : Script} (h : strict s = .ok x) :
    ∃ ops ts t rest k, Tokens s 0 true ops (ts ++ t :: rest) k ∧ t.value ∈ followsItems ∧ Nested ts := by
  obtain ⟨ops, ts, k, rest, h1, h2⟩ := C34_strict s x h
  obtain ⟨t, r, rfl, h3, _⟩ := Semis.ends h2 rfl
  obtain ⟨us, rfl, h4, _⟩ := parts h2 rfl
  exact ⟨ops, us, t, r, k, h1, h3, h4⟩

/-- C80 for modules: this is about all tokens of the text. -/
theorem C80_module {x : Module} (h : parseModule s = .ok x) :
    ∃ ops ts t rest k, Tokens s 0 true ops (ts ++ t :: rest) k ∧ t.value = .eof ∧ Nested ts := by
  obtain ⟨ops, ts, k, rest, h1, h2⟩ := C34_module s x h
  obtain ⟨t, r, rfl, h3⟩ := module_end h2 rfl
  obtain ⟨us, rfl, h4, _⟩ := parts h2 rfl
  exact ⟨ops, us, t, r, k, h1, h3, h4⟩

/-- C80 for `program`: this is about all tokens of the text. -/
theorem C80_program {c : List Check} {x : Script} (h : program s = .ok (.ambiguous c x)) :
    ∃ ops ts t rest k, Tokens s 0 true ops (ts ++ t :: rest) k ∧ t.value = .eof ∧ Nested ts := by
  obtain ⟨_, _, e, ops, ts, k, rest, h1, h2, t, r, rfl, h3⟩ := C34_program s _ h
  cases e
  obtain ⟨us, rfl, h4, _⟩ := parts h2 rfl
  exact ⟨ops, us, t, r, k, h1, h3, h4⟩

/-- C81: the tree returned by `script` stands for as many semicolons as there are in the text, up to the first
token that cannot begin a statement. -/
theorem C81_script {x : Script} (h : script s = .ok x) :
    ∃ ops ts t rest k, Tokens s 0 true ops (ts ++ t :: rest) k ∧ t.value ∈ followsItems ∧ semicolons ts = x.semicolons := by
  obtain ⟨ops, ts, k, rest, h1, h2⟩ := C34_script s x h
  obtain ⟨t, r, rfl, h3, _⟩ := Semis.ends h2 rfl
  obtain ⟨us, rfl, _, h4⟩ := parts h2 rfl
  exact ⟨ops, us, t, r, k, h1, h3, h4⟩

/-- C81 for strict code. -/
theorem C81_strict {x : Script} (h : strict s = .ok x) :
    ∃ ops ts t rest k, Tokens s 0 true ops (ts ++ t :: rest) k ∧ t.value ∈ followsItems ∧ semicolons ts = x.semicolons := by
  obtain ⟨ops, ts, k, rest, h1, h2⟩ := C34_strict s x h
  obtain ⟨t, r, rfl, h3, _⟩ := Semis.ends h2 rfl
  obtain ⟨us, rfl, _, h4⟩ := parts h2 rfl
  exact ⟨ops, us, t, r, k, h1, h3, h4⟩

/-- C81 for modules: this is about all tokens of the text. -/
theorem C81_module {x : Module} (h : parseModule s = .ok x) :
    ∃ ops ts t rest k, Tokens s 0 true ops (ts ++ t :: rest) k ∧ t.value = .eof ∧ semicolons ts = x.semicolons := by
  obtain ⟨ops, ts, k, rest, h1, h2⟩ := C34_module s x h
  obtain ⟨t, r, rfl, h3⟩ := module_end h2 rfl
  obtain ⟨us, rfl, _, h4⟩ := parts h2 rfl
  exact ⟨ops, us, t, r, k, h1, h3, h4⟩

/-- C81 for `program`: this is about all tokens of the text. -/
theorem C81_program {c : List Check} {x : Script} (h : program s = .ok (.ambiguous c x)) :
    ∃ ops ts t rest k, Tokens s 0 true ops (ts ++ t :: rest) k ∧ t.value = .eof ∧ semicolons ts = x.semicolons := by
  obtain ⟨_, _, e, ops, ts, k, rest, h1, h2, t, r, rfl, h3⟩ := C34_program s _ h
  cases e
  obtain ⟨us, rfl, _, h4⟩ := parts h2 rfl
  exact ⟨ops, us, t, r, k, h1, h3, h4⟩

end Theorems

section Examples

local instance nestingEnv : Env := asciiEnv true
local instance nestingEnvLawful : LawfulEnv := asciiEnv_lawful true

/-- Brackets of all kinds, also in a string and in a regular expression, where they do not count. -/
example : (match program c!"for(;;){f([(a)],{b:'(['});;}/[(]/", readTokens c!"for(;;){f([(a)],{b:'(['});;}/[(]/"
      (List.replicate 21 true ++ [false, true]) with
    | .ok (.ambiguous _ x), .ok (ts, _) => decide (Nested ts) && ts.length == 23 &&
        semicolons ts == 4 && x.semicolons == 4 && x.missing == 1
    | _, _ => false) = true := by decide +kernel

/-- Tokens whose brackets are not balanced: wrongly nested, not closed, not opened. -/
example : ∀ s ∈ [c!"([)]", c!"{(}", c!")", c!"(()"], (match readTokens s (List.replicate 4 true) with
    | .ok (ts, _) => decide (Nested ts)
    | _ => true) = false := by decide +kernel

/-- The number of semicolons of a tree: two for the loop, one that ends a statement, an empty statement. -/
example : (match script c!"for(a;b;)c;;d" with
    | .ok x => x.semicolons == 4 && x.missing == 1
    | _ => false) = true := by decide +kernel

end Examples

end Esprit
