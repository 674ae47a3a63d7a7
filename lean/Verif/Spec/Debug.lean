import Verif.Model.Debug
import Verif.Spec.Ast

/-! What is assumed of the texts of characters, strings and numbers that Rust's standard
library gives for `{:?}`. -/

namespace Esprit

/-- The characters that are not used in the texts of numbers, nor in names. -/
def Delimiter (c : Char) : Prop := c ∈ c!", ()[]{}\"'"

instance (c : Char) : Decidable (Delimiter c) := inferInstanceAs (Decidable (c ∈ _))

/-- Rust's `{:?}` for `char`, `str` and `f64`: characters and strings are quoted, with
escapes such that the quoted text can be told from what follows it; the text of a number
identifies its value (it reads back as the same number). -/
class LawfulDebugStd extends DebugStd where
  char_head : ∀ c, (char c).head? = some '\''
  char_code : ∀ {c d : Char} {r s : Str}, char c ++ r = char d ++ s → c = d ∧ r = s
  str_head : ∀ x, (str x).head? = some '"'
  str_code : ∀ {x y r s : Str}, str x ++ r = str y ++ s → x = y ∧ r = s
  num_ne : ∀ x, num x ≠ []
  num_chars : ∀ x, ∀ c ∈ num x, ¬Delimiter c
  /-- Different numbers have different texts. -/
  num_differ : ∀ {x y : F64}, num x = num y → x ≠ .nan → SameNumber x y
  /-- Equal numbers have the same text, except for the two zeros. -/
  num_equal : ∀ {x y : F64}, SameNumber x y → x.toRat? ≠ some 0 → num x = num y

/-! ### What `#[derive(Debug)]` generates -/

/-- `Debug` of the contents of a field. -/
def Derive.Part.dbg [DebugStd] : Derive.Part → Dbg
  | .loc l => l.dbg
  | .node _ x => x.dbg
  | .id i => i.dbg
  | .idOpt i => Dbg.opt Id.dbg i
  | .propKey k => k.dbg
  | .dotKey k => k.dbg
  | .unop o => o.dbg UnopTag.debug
  | .binop o => o.dbg BinopTag.debug
  | .logop o => o.dbg LogopTag.debug
  | .assop o => o.dbg AssopTag.debug
  | .semi s => s.dbg
  | .str s => s.dbg
  | .num n => n.dbg
  | .regexp r => r.dbg
  | .dirs ds => .vec (ds.map Dir.dbg)
  | .bool b => boolDbg b

/-- What the derived `Debug` does with a value: the name of its struct or variant, with all
fields in order, with names if they have names. -/
def Derive.Value.dbg [DebugStd] (v : Derive.Value Derive.Part) : Dbg :=
  let name := v.path.getLast?.getD []
  match v.fields with
  | .named fs => .record name (fs.map fun f => (f.1, f.2.dbg))
  | .positional fs => if fs.isEmpty then .word name else .tup name (fs.map Derive.Part.dbg)
  | .unit => .word name

/-- The value without the fields that are locations. -/
def Derive.Value.dropLocs (v : Derive.Value Derive.Part) : Derive.Value Derive.Part :=
  match v.fields with
  | .positional fs => { v with fields := .positional (fs.filter fun p => match p with
      | .loc _ => false
      | _ => true) }
  | _ => v

/-! ### Escapes -/

/-- std's `char::escape_debug` (Rust 1.20), for some `printable` characters. -/
def escapeDebug (printable : Char → Bool) (c : Char) : Str :=
  if c = '\t' then c!"\\t"
  else if c = '\r' then c!"\\r"
  else if c = '\n' then c!"\\n"
  else if c = '\\' ∨ c = '\'' ∨ c = '"' then ['\\', c]
  else if printable c then [c]
  else c!"\\u{" ++ Nat.toDigits 16 c.toNat ++ c!"}"

/-- std's `Debug for char`. -/
def debugChar (printable : Char → Bool) (c : Char) : Str := '\'' :: (escapeDebug printable c ++ c!"'")

/-- std's `Debug for str`. -/
def debugStr (printable : Char → Bool) (s : Str) : Str := '"' :: (s.flatMap (escapeDebug printable) ++ c!"\"")

end Esprit
