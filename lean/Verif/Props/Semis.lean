import Verif.Proofs.Complete.SameTokens
import Verif.Proofs.Complete.SemisLex
import Verif.Props.Exact
import Verif.Props.Lexer

/-!
Inserted semicolons can be written out (C74): if a text is accepted, then adding to it one `;` for
each semicolon that was inserted gives a text that is accepted with the same tree.
-/

set_option linter.unusedSectionVars false

namespace Esprit

open Lex ReaderSpec Grammar

section Theorems

variable [Env] [LawfulEnv] {s : Str}

private theorem ins_eq {i j : List Token} (h : Semis.Ins i j) : j.length = i.length → j = i := by
  induction h with
  | nil => exact fun _ => rfl
  | cons _ ih => exact fun h => congrArg _ (ih (by simpa using h))
  | semi _ _ h _ =>
    intro he
    have := h.length
    simp only [List.length_cons] at he
    omega

/-- The tokens and the text with the semicolons written out. -/
private theorem moved {L : LocSpec} {c : Cat} {env : Scope} {nt : NT c} {ts rest : List Token} {x : Ast c}
    (h : Derives L env nt ts rest x) (hn : Semis.stmts nt = true) (hk : Semis.ok nt = true)
    (hp : env.plain = true) :
    ∃ ts1 x1, SemisAdded x.missing ts ts1 ∧ Derives Rename.NoLoc env nt ts1 rest x1 ∧ Ast.Similar x1 x ∧
      ∀ {s ops k}, Tokens s 0 true ops ts k → ∃ s' ops' ts' k', SemisWritten x.missing s s' ∧
        Tokens s' 0 true ops' ts' k' ∧ ts'.map flags = ts1.map flags := by
  obtain ⟨t, r, e, _, hm⟩ := Semis.ends h hn
  obtain ⟨ts1, x1, h1, h2, h3, h4⟩ := Semis.derives h hk hp (rest' := rest)
    (.inl (e ▸ .mk (.refl _)))
  have h5 : ts1.length - ts.length = x.missing := by omega
  refine ⟨ts1, x1, h5 ▸ h1.ins.added, h2, h3, fun {s ops k} ht => ?_⟩
  obtain ⟨d, hd, hne⟩ := Semis.Eats.derives h
  cases d with
  | nil =>
    have h6 := hm hd
    have h7 := ins_eq h1.ins (by omega)
    exact ⟨s, ops, ts, k, h6 ▸ .refl _, ht, by rw [h7]⟩
  | cons u d =>
    obtain ⟨d', hd'⟩ := h2.suffix
    subst hd hd'
    obtain ⟨n, s', ops', ts', k', g1, g2, g3, g4⟩ := Semis.text ht h1 hne
    have : n = x.missing := by omega
    exact ⟨s', ops', ts', k', this ▸ g1, g2, g3⟩

/-- C74: if `script` accepts a text, then there is a text with one `;` more for each inserted
semicolon of the tree, and nothing else changed, that it accepts with a similar tree (the same up to
locations and the origin of semicolons).  No statement is labelled twice with the same name. -/
theorem C74_script {x : Script} (h : script s = .ok x) (hd : DistinctLabels x) :
    ∃ s' y, SemisWritten x.missing s s' ∧ script s' = .ok y ∧ Ast.Similar y x := by
  obtain ⟨ops, ts, k, rest, h1, h2⟩ := C34_script s x h
  obtain ⟨ts1, x1, _, h3, h4, h5⟩ := moved (derives_plain h1 h2 rfl hd) rfl rfl rfl
  obtain ⟨s', ops', ts', k', h6, h7, h8⟩ := h5 h1
  obtain ⟨rest', x', _, h9, h10⟩ := Rename.derives Rename.noRenaming_ok h3 rfl (Rename.rel_of h8)
  rw [Rename.ast_rename] at h10
  obtain ⟨y, h11, h12⟩ := C50_script x' h7 h9
  exact ⟨s', y, h6, h11, h12.trans (h10.trans h4)⟩

/-- C74 for strict code. -/
theorem C74_strict {x : Script} (h : strict s = .ok x) (hd : DistinctLabels x) :
    ∃ s' y, SemisWritten x.missing s s' ∧ strict s' = .ok y ∧ Ast.Similar y x := by
  obtain ⟨ops, ts, k, rest, h1, h2⟩ := C34_strict s x h
  obtain ⟨ts1, x1, _, h3, h4, h5⟩ := moved (derives_plain h1 h2 rfl hd) rfl rfl rfl
  obtain ⟨s', ops', ts', k', h6, h7, h8⟩ := h5 h1
  obtain ⟨rest', x', _, h9, h10⟩ := Rename.derives Rename.noRenaming_ok h3 rfl (Rename.rel_of h8)
  rw [Rename.ast_rename] at h10
  obtain ⟨y, h11, h12⟩ := C50_strict x' h7 h9
  exact ⟨s', y, h6, h11, h12.trans (h10.trans h4)⟩

/-- C74 for modules. -/
theorem C74_module {x : Module} (h : parseModule s = .ok x) (hd : DistinctLabels x) :
    ∃ s' y, SemisWritten x.missing s s' ∧ parseModule s' = .ok y ∧ Ast.Similar y x := by
  obtain ⟨ops, ts, k, rest, h1, h2⟩ := C34_module s x h
  obtain ⟨ts1, x1, _, h3, h4, h5⟩ := moved (derives_plain h1 h2 rfl hd) rfl rfl rfl
  obtain ⟨s', ops', ts', k', h6, h7, h8⟩ := h5 h1
  obtain ⟨rest', x', _, h9, h10⟩ := Rename.derives Rename.noRenaming_ok h3 rfl (Rename.rel_of h8)
  rw [Rename.ast_rename] at h10
  obtain ⟨y, h11, h12⟩ := C50_module x' h7 h9
  exact ⟨s', y, h6, h11, h12.trans (h10.trans h4)⟩

/-- C74 for `program`. -/
theorem C74_program {c : List Check} {x : Script} (h : program s = .ok (.ambiguous c x))
    (hd : DistinctLabels x) :
    ∃ s' c' y, SemisWritten x.missing s s' ∧ program s' = .ok (.ambiguous c' y) ∧ Ast.Similar y x := by
  obtain ⟨_, _, e, ops, ts, k, rest, h1, h2, hr⟩ := C34_program s _ h
  cases e
  obtain ⟨ts1, x1, _, h3, h4, h5⟩ := moved (derives_plain h1 h2 rfl hd) rfl rfl rfl
  obtain ⟨s', ops', ts', k', h6, h7, h8⟩ := h5 h1
  obtain ⟨rest', x', h9, h10, h11⟩ := Rename.derives Rename.noRenaming_ok h3 rfl (Rename.rel_of h8)
  rw [Rename.ast_rename] at h11
  obtain ⟨c', y, h12, h13⟩ := C50_program x' h7 h10 (Rename.nextIs h9 hr rfl)
  exact ⟨s', c', y, h6, h12, h13.trans (h11.trans h4)⟩

/-- C74 for all layouts: the tokens of the text with `x.missing` semicolons more, none of which
starts a line, are accepted with a similar tree, however they are spelled and separated. -/
theorem C74_layout {x : Script} (h : script s = .ok x) (hd : DistinctLabels x) :
    ∃ ops ts k ts1, Tokens s 0 true ops ts k ∧ SemisAdded x.missing ts ts1 ∧
      ∀ s' ops' ts' k', Tokens s' 0 true ops' ts' k' →
        ts'.map (fun t => (t.newline, t.value)) = ts1.map (fun t => (t.newline, t.value)) →
        ∃ y, script s' = .ok y ∧ Ast.Similar y x := by
  obtain ⟨ops, ts, k, rest, h1, h2⟩ := C34_script s x h
  obtain ⟨ts1, x1, h0, h3, h4, h5⟩ := moved (derives_plain h1 h2 rfl hd) rfl rfl rfl
  refine ⟨ops, ts, k, ts1, h1, h0, fun s' ops' ts' k' h7 h8 => ?_⟩
  obtain ⟨rest', x', _, h9, h10⟩ := Rename.derives Rename.noRenaming_ok h3 rfl (Rename.rel_of h8)
  rw [Rename.ast_rename] at h10
  obtain ⟨y, h11, h12⟩ := C50_script x' h7 h9
  exact ⟨y, h11, h12.trans (h10.trans h4)⟩

end Theorems

section Examples

local instance semisEnv : Env := asciiEnv true
local instance semisEnvLawful : LawfulEnv := asciiEnv_lawful true

/-- Five semicolons are inserted: after the directive, before a line terminator, before `}`, after
`do` … `while` and at the end; the labels are distinct. -/
example : (match script c!"'d'\nwhile(a){b\nc()}do;while(0)d" with
    | .ok x => labelsCheck 20 Place.top ⟨_, x⟩ && x.missing == 5
    | _ => false) = true := by decide +kernel

/-- The text with these semicolons has the same tree. -/
example : (match script c!"'d'\nwhile(a){b\nc()}do;while(0)d",
      script c!"'d';\nwhile(a){b;\nc();}do;while(0);d;" with
    | .ok x, .ok y => Ast.eqv y.untrack x.untrack && y.missing == 0
    | _, _ => false) = true := by decide +kernel

/-- Nothing is inserted into a text with all its semicolons. -/
example : (match program c!"a;for(;;){b;}" with
    | .ok (.ambiguous _ x) => labelsCheck 20 Place.top ⟨_, x⟩ && x.missing == 0
    | _ => false) = true := by decide +kernel

end Examples

end Esprit
