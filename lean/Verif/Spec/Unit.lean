import Verif.Model.Parser.Program

/-! What a program is rejected for when it is used as a script or as a module (C73). -/

namespace Esprit

/-- What is written between (and with) the quotes, or the value of a literal that was not read from
a text. -/
def Dir.Says (d : Dir) (w : Str) : Prop :=
  d.string.source = some w ∨ (d.string.source = none ∧ d.string.value = w)

/-- The item makes a program a module. -/
def IsModuleItem : Ast .modItem → Prop
  | .miImport _ | .miExport _ => True
  | .miItem _ => False

/-- The reason for which a module cannot be a script: its first `use module` directive; if there is
none, its first import or export; if there is none either, the module. -/
inductive BlamedFor : Module → PError → Prop where
  | directive {l : Loc} {before after : List Dir} {d : Dir} {items : Ast (.list .modItem)} :
      (∀ d' ∈ before, ¬ d'.Says c!"use module") → d.Says c!"use module" →
      BlamedFor (.body l (before ++ d :: after) items) (.unexpectedDirective d.location d.string)
  | «import» {l : Loc} {ds : List Dir} {before after : List (Ast .modItem)} {i : Ast .«import»} :
      (∀ d ∈ ds, ¬ d.Says c!"use module") → (∀ x ∈ before, ¬ IsModuleItem x) →
      BlamedFor (.body l ds (.ofList (before ++ .miImport i :: after))) (.importInScript i)
  | «export» {l : Loc} {ds : List Dir} {before after : List (Ast .modItem)} {e : Ast .«export»} :
      (∀ d ∈ ds, ¬ d.Says c!"use module") → (∀ x ∈ before, ¬ IsModuleItem x) →
      BlamedFor (.body l ds (.ofList (before ++ .miExport e :: after))) (.exportInScript e)
  | module {l : Loc} {ds : List Dir} {items : Ast (.list .modItem)} :
      (∀ d ∈ ds, ¬ d.Says c!"use module") → (∀ x ∈ items.toList, ¬ IsModuleItem x) →
      BlamedFor (.body l ds items) (.unexpectedModule l)

/-- The check forbids the program in strict code (or, with `module`, in a module) because of `e`. -/
def Check.Forbids (module : Bool) (c : Check) (e : PError) : Prop :=
  c = .strict e ∨ (module = true ∧ c = .module e)

/-- `e` is the error of the first of the checks that forbid the program. -/
def FirstForbids (module : Bool) (cs : List Check) (e : PError) : Prop :=
  ∃ before c after, cs = before ++ c :: after ∧ c.Forbids module e ∧
    ∀ c' ∈ before, ∀ e', ¬ c'.Forbids module e'

end Esprit
