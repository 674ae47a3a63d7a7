import Verif.Spec.Leaves
import Verif.Spec.Lex

/-!
Specification of the parts of a tree that quote the source text: identifiers,
property names, literals and directives.
-/

namespace Esprit

open Lex

/-- A part of a tree that is written as one token. -/
inductive Cite where
  | ident (i : Id)
  | word (l : Loc) (s : Str)
  | number (l : Loc) (n : NumberLiteral)
  | string (l : Loc) (s : StringLiteral)
  | regExp (l : Loc) (r : RegExpLiteral)

/-- The location of the part. -/
def Cite.loc : Cite → Loc
  | .ident i => i.location
  | .word l _ | .number l _ | .string l _ | .regExp l _ => l

/-- A property name. -/
def PropKey.cite : PropKey → Cite
  | .id l s => .word l s
  | .string l s => .string l s
  | .number l n => .number l n

/-- The parts of a node itself that are written as one token. -/
def Ast.cites : {c : Cat} → Ast c → List Cite
  | _, .ident i => [.ident i]
  | _, .key k => [k.cite]
  | _, .eThis l => [.word l c!"this"]
  | _, .eNull l => [.word l c!"null"]
  | _, .eTrue l => [.word l c!"true"]
  | _, .eFalse l => [.word l c!"false"]
  | _, .eNumber l n => [.number l n]
  | _, .eString l s => [.string l s]
  | _, .eRegExp l r => [.regExp l r]
  | _, .eId i => [.ident i]
  | _, .eDot _ _ k => [.word k.location k.value]
  | _, .tId i => [.ident i]
  | _, .tDot _ _ k => [.word k.location k.value]
  | _, .ppRegular _ k _ => [k.cite]
  | _, .ppShorthand i => [.ident i]
  | _, .prRegular _ k _ => [k.cite]
  | _, .prShorthand i => [.ident i]
  | _, .dtSimple _ i _ => [.ident i]
  | _, .sLabel _ i _ => [.ident i]
  | _, .sBreak _ i _ => i.toList.map Cite.ident
  | _, .sCont _ i _ => i.toList.map Cite.ident
  | _, .fiVarInit _ i _ => [.ident i]
  | _, _ => []

/-- The directives of a node itself. -/
def Ast.ownDirs : {c : Cat} → Ast c → List Dir
  | _, .body _ ds _ => ds
  | _, _ => []

/-- The part is what the text `x` says. -/
def Cite.Quotes [Env] (x : Str) : Cite → Prop
  | .ident i => ∃ esc, WordParts x esc i.name.intoString ∧
      (esc = false → x = i.name.intoString ∧ i.name = Name.from x)
  | .word _ s => ∃ esc, WordParts x esc s ∧ (esc = false → x = s)
  | .number _ n => ∃ src, n.source = some src ∧ x = spellNumber src
  | .string _ s => s.source = some x
  | .regExp _ r => ∃ f esc, x = c!"/" ++ r.pattern ++ c!"/" ++ f ∧ WordParts f esc r.flags

end Esprit
