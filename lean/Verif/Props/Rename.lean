import Verif.Proofs.Complete.Rename
import Verif.Props.Exact
import Verif.Props.Lexer

/-!
Identifiers can be renamed and literals replaced (C72): if a text is accepted, then so is each text
with the same tokens except that identifiers are renamed throughout and literals are replaced by
others, and its tree is the tree with the same replacements.
-/

set_option linter.unusedSectionVars false

namespace Esprit

open Lex ReaderSpec Grammar

section Theorems

variable [Env] [LawfulEnv] {g : Renaming} {s : Str}

private theorem rel_of : {ts ts' : List Token} → RenamedTokens g ts ts' → Rename.Rel g false ts ts'
  | [], [], _ => .nil
  | [], _ :: _, h => nomatch h
  | _ :: _, [], h => nomatch h
  | t :: ts, t' :: ts', h => by
    obtain ⟨h1, h2⟩ := List.cons.inj h
    simp only [Prod.mk.injEq] at h1
    refine .cons ⟨h1.1, fun _ h => h1.2.trans h, fun _ => h1.2⟩ (fun _ => ?_) (rel_of h2)
    rintro u r u' r' rfl rfl _ _
    exact congrArg Prod.snd (List.cons.inj h2).1

/-- C72: if `script` accepts a text, then it accepts all texts with the renamed tokens (read in the
same way), and their trees are the renamed tree (up to locations and the origin of semicolons).
No statement is labelled twice with the same name. -/
theorem C72_script (hg : IsRenaming g) {x : Script} (h : script s = .ok x) (hd : DistinctLabels x) :
    ∃ ops ts k, Tokens s 0 true ops ts k ∧ ∀ s' ts' k', Tokens s' 0 true ops ts' k' →
      RenamedTokens g ts ts' → ∃ y, script s' = .ok y ∧ Ast.Similar y (x.rename g) := by
  obtain ⟨ops, ts, k, rest, h1, h2⟩ := C34_script s x h
  refine ⟨ops, ts, k, h1, fun s' ts' k' h3 h4 => ?_⟩
  obtain ⟨rest', x', _, h5, h6⟩ := Rename.derives hg (derives_plain h1 h2 rfl hd) rfl (rel_of h4)
  obtain ⟨y, h7, h8⟩ := C50_script x' h3 h5
  exact ⟨y, h7, h8.trans h6⟩

/-- C72 for strict code. -/
theorem C72_strict (hg : IsRenaming g) {x : Script} (h : strict s = .ok x) (hd : DistinctLabels x) :
    ∃ ops ts k, Tokens s 0 true ops ts k ∧ ∀ s' ts' k', Tokens s' 0 true ops ts' k' →
      RenamedTokens g ts ts' → ∃ y, strict s' = .ok y ∧ Ast.Similar y (x.rename g) := by
  obtain ⟨ops, ts, k, rest, h1, h2⟩ := C34_strict s x h
  refine ⟨ops, ts, k, h1, fun s' ts' k' h3 h4 => ?_⟩
  obtain ⟨rest', x', _, h5, h6⟩ := Rename.derives hg (derives_plain h1 h2 rfl hd) rfl (rel_of h4)
  obtain ⟨y, h7, h8⟩ := C50_strict x' h3 h5
  exact ⟨y, h7, h8.trans h6⟩

/-- C72 for modules. -/
theorem C72_module (hg : IsRenaming g) {x : Module} (h : parseModule s = .ok x) (hd : DistinctLabels x) :
    ∃ ops ts k, Tokens s 0 true ops ts k ∧ ∀ s' ts' k', Tokens s' 0 true ops ts' k' →
      RenamedTokens g ts ts' → ∃ y, parseModule s' = .ok y ∧ Ast.Similar y (x.rename g) := by
  obtain ⟨ops, ts, k, rest, h1, h2⟩ := C34_module s x h
  refine ⟨ops, ts, k, h1, fun s' ts' k' h3 h4 => ?_⟩
  obtain ⟨rest', x', _, h5, h6⟩ := Rename.derives hg (derives_plain h1 h2 rfl hd) rfl (rel_of h4)
  obtain ⟨y, h7, h8⟩ := C50_module x' h3 h5
  exact ⟨y, h7, h8.trans h6⟩

/-- C72 for `program`. -/
theorem C72_program (hg : IsRenaming g) {c : List Check} {x : Script}
    (h : program s = .ok (.ambiguous c x)) (hd : DistinctLabels x) :
    ∃ ops ts k, Tokens s 0 true ops ts k ∧ ∀ s' ts' k', Tokens s' 0 true ops ts' k' →
      RenamedTokens g ts ts' →
      ∃ c' y, program s' = .ok (.ambiguous c' y) ∧ Ast.Similar y (x.rename g) := by
  obtain ⟨_, _, e, ops, ts, k, rest, h1, h2, h3⟩ := C34_program s _ h
  cases e
  refine ⟨ops, ts, k, h1, fun s' ts' k' h4 h5 => ?_⟩
  obtain ⟨rest', x', h6, h7, h8⟩ := Rename.derives hg (derives_plain h1 h2 rfl hd) rfl (rel_of h5)
  obtain ⟨c', y, h9, h10⟩ := C50_program x' h4 h7 (Rename.nextIs h6 h3 rfl)
  exact ⟨c', y, h9, h10.trans h8⟩

end Theorems

section Examples

local instance renameEnv : Env := asciiEnv true
local instance renameEnvLawful : LawfulEnv := asciiEnv_lawful true

/-- `a` and `long` are exchanged. -/
private def exchangeName (w : Str) : Str :=
  if w = c!"a" then c!"long" else if w = c!"long" then c!"a" else w

/-- The names are exchanged, and all strings become `"yes"`. -/
private def exchange : Renaming where
  name := exchangeName
  string := fun _ => ⟨some c!"\"yes\"", c!"yes"⟩
  number := id
  regExp := id

private theorem exchange_renaming : IsRenaming exchange where
  inj v w h := by
    unfold exchange exchangeName at h
    simp only at h
    split at h <;> split at h <;> (try split at h) <;> (try split at h) <;> simp_all
  reserved w r h := (by decide +kernel : ∀ p ∈ reservedWords, exchangeName p.1 = p.1) _ h
  contextual w a h := (by decide +kernel : ∀ p ∈ contextualWords, exchangeName p.1 = p.1) _ h

private def modes : List Bool := [false, true, false, true, true, true, false, true, true, false, true]

/-- The text `a:b/{long}.a+ 'x'` and a text with the renamed tokens. -/
example : ∃ ts ts' k k', Tokens c!"a:b/{long}.a+ 'x'" 0 true modes ts k ∧
    Tokens c!"long: b / {a} . long + \"yes\"" 0 true modes ts' k' ∧ RenamedTokens exchange ts ts' := by
  have key : (match readTokens c!"a:b/{long}.a+ 'x'" modes, readTokens c!"long: b / {a} . long + \"yes\"" modes with
      | .ok (ts, _), .ok (ts', _) =>
        decide (ts'.map (fun t => (t.value, t.newline)) = ts.map fun t => (t.value.rename exchange, t.newline))
      | _, _ => false) = true := by decide +kernel
  split at key
  · rename_i ts l ts' l' h h'
    obtain ⟨k, hk⟩ := (C04_tokens_exact _ _ _).1 ⟨l, h⟩
    obtain ⟨k', hk'⟩ := (C04_tokens_exact _ _ _).1 ⟨l', h'⟩
    refine ⟨ts, ts', k, k', hk, hk', ?_⟩
    unfold RenamedTokens
    exact of_decide_eq_true key
  · cases key

/-- The text is accepted, and its labels are distinct; the tree of the second text is the renamed tree
of the first. -/
example : (match program c!"a:b/{long}.a+ 'x'", program c!"long: b / {a} . long + \"yes\"" with
    | .ok (.ambiguous _ x), .ok (.ambiguous _ y) =>
      labelsCheck 20 Place.top ⟨_, x⟩ && Ast.eqv y.untrack (x.rename exchange).untrack
    | _, _ => false) = true := by decide +kernel

end Examples

end Esprit
