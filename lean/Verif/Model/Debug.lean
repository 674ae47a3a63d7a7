import Verif.Model.AstDecl
import Verif.Model.Text

/-!
Model of the `Debug` implementations of the syntax tree (`crates/easter/src`, and of the
literals and names in `crates/joker/src`): the text of a tree with `{:?}`.

Almost all of them are derived; those of `Expr`, `Op` and of literals are written by hand.
What an implementation does is to call the builders of `std::fmt` (`debug_tuple`,
`debug_struct`, `debug_list`); their calls are a tree, `Dbg`, and `Dbg.text` is what the
builders print (without the alternate flag `#`).  The texts of characters, strings and
numbers are code of Rust's standard library and a parameter, `DebugStd`.
-/

namespace Esprit

/-- Rust's `{:?}` for `char`, `str` and `f64`. -/
class DebugStd where
  char : Char → Str
  str : Str → Str
  num : F64 → Str

/-- A call of the builders of `std::fmt`. -/
inductive Dbg where
  /-- `write_str`, or the text of a number. -/
  | word (s : Str)
  /-- The text of a `str`. -/
  | str (s : Str)
  /-- The text of a `char`. -/
  | chr (c : Char)
  /-- `debug_tuple(name)` with fields. -/
  | tuple (name : Str) (fields : Dbg)
  /-- `debug_struct(name)` with fields. -/
  | struct (name : Str) (fields : Dbg)
  /-- `debug_list()` with entries. -/
  | list (entries : Dbg)
  /-- No further fields or entries. -/
  | nil
  /-- A field or entry, and further ones.  The name is empty for those of tuples and
  lists. -/
  | cons (name : Str) (x : Dbg) (rest : Dbg)

namespace Dbg

/-- The text of a field: its name, if it has one, and its contents (std's
`DebugStruct::field`). -/
def fieldText (name x : Str) : Str := if name = [] then x else name ++ c!": " ++ x

/-- The text of fields. -/
def joinText (x rest : Str) : Str := if rest = [] then x else x ++ c!", " ++ rest

/-- What the builders print: `Name(x, y)`, `Name { f: x, g: y }` and `[x, y]` (std's
`DebugTuple`, `DebugStruct` and `DebugList`, for at least one field of tuples and
structs, as there always are). -/
def text [DebugStd] : Dbg → Str
  | .word s => s
  | .str s => DebugStd.str s
  | .chr c => DebugStd.char c
  | .tuple n fs => n ++ c!"(" ++ text fs ++ c!")"
  | .struct n fs => n ++ c!" { " ++ text fs ++ c!" }"
  | .list xs => c!"[" ++ text xs ++ c!"]"
  | .nil => []
  | .cons n x rest => joinText (fieldText n (text x)) (text rest)

/-- `debug_tuple(n)` with these fields. -/
def tup (n : Str) (fs : List Dbg) : Dbg := .tuple n (fs.foldr (.cons []) .nil)

/-- `debug_struct(n)` with these fields. -/
def record (n : Str) (fs : List (Str × Dbg)) : Dbg :=
  .struct n (fs.foldr (fun f rest => .cons f.1 f.2 rest) .nil)

/-- `debug_list()` with these entries. -/
def vec (xs : List Dbg) : Dbg := .list (xs.foldr (.cons []) .nil)

/-- `Debug` of `Option`. -/
def opt {α : Type} (f : α → Dbg) : Option α → Dbg
  | none => .word c!"None"
  | some x => tup c!"Some" [f x]

end Dbg

/-- `Debug` of `Option<Span>` (track.rs:32-36 for `Span`). -/
def Loc.dbg (l : Loc) : Dbg := Dbg.opt (fun s => .word s.debug) l

/-- punc.rs:8-12 derived `Debug for Semi` (track.rs:20-24 for `Posn`). -/
def Semi.dbg : Semi → Dbg
  | .inserted => .word c!"Inserted"
  | .explicit p => .tup c!"Explicit" [Dbg.opt (fun p => .word p.debug) p]

/-- `Debug` of `bool`. -/
def boolDbg (b : Bool) : Dbg := .word (if b then c!"true" else c!"false")


/-- word.rs:130-150 derived `Debug for Atom`: the name of the variant. -/
def Atom.debug : Atom → Str
  | .arguments => c!"Arguments"
  | .async => c!"Async"
  | .await => c!"Await"
  | .eval => c!"Eval"
  | .«from» => c!"From"
  | .get => c!"Get"
  | .implements => c!"Implements"
  | .interface => c!"Interface"
  | .«let» => c!"Let"
  | .of => c!"Of"
  | .package => c!"Package"
  | .«private» => c!"Private"
  | .«protected» => c!"Protected"
  | .«public» => c!"Public"
  | .set => c!"Set"
  | .«static» => c!"Static"
  | .target => c!"Target"
  | .yield => c!"Yield"

/-- punc.rs:20-29 derived `Debug for UnopTag`: the name of the variant. -/
def UnopTag.debug : UnopTag → Str
  | .minus => c!"Minus"
  | .plus => c!"Plus"
  | .not => c!"Not"
  | .bitNot => c!"BitNot"
  | .typeof => c!"Typeof"
  | .void => c!"Void"
  | .delete => c!"Delete"

/-- punc.rs:97-120 derived `Debug for BinopTag`: the name of the variant. -/
def BinopTag.debug : BinopTag → Str
  | .eq => c!"Eq"
  | .nEq => c!"NEq"
  | .strictEq => c!"StrictEq"
  | .strictNEq => c!"StrictNEq"
  | .lt => c!"Lt"
  | .lEq => c!"LEq"
  | .gt => c!"Gt"
  | .gEq => c!"GEq"
  | .lShift => c!"LShift"
  | .rShift => c!"RShift"
  | .uRShift => c!"URShift"
  | .plus => c!"Plus"
  | .minus => c!"Minus"
  | .times => c!"Times"
  | .div => c!"Div"
  | .mod => c!"Mod"
  | .bitOr => c!"BitOr"
  | .bitXor => c!"BitXor"
  | .bitAnd => c!"BitAnd"
  | .«in» => c!"In"
  | .instanceof => c!"Instanceof"

/-- punc.rs:211-215 derived `Debug for LogopTag`: the name of the variant. -/
def LogopTag.debug : LogopTag → Str
  | .or => c!"Or"
  | .and => c!"And"

/-- punc.rs:249-262 derived `Debug for AssopTag`: the name of the variant. -/
def AssopTag.debug : AssopTag → Str
  | .plusEq => c!"PlusEq"
  | .minusEq => c!"MinusEq"
  | .timesEq => c!"TimesEq"
  | .divEq => c!"DivEq"
  | .modEq => c!"ModEq"
  | .lShiftEq => c!"LShiftEq"
  | .rShiftEq => c!"RShiftEq"
  | .uRShiftEq => c!"URShiftEq"
  | .bitOrEq => c!"BitOrEq"
  | .bitXorEq => c!"BitXorEq"
  | .bitAndEq => c!"BitAndEq"

/-- punc.rs:65-71 `Debug for Op`: without the location. -/
def Op.dbg {T : Type} (debug : T → Str) (o : Op T) : Dbg :=
  .record c!"Op" [(c!"tag", .word (debug o.tag))]

/-- word.rs:152-156 derived `Debug for Name`. -/
def Name.dbg : Name → Dbg
  | .atom a => .tup c!"Atom" [.word a.debug]
  | .string s => .tup c!"String" [.str s]

/-- token.rs:119-126 `Debug for RegExpLiteral`: the flags are sorted. -/
def RegExpLiteral.dbg (r : RegExpLiteral) : Dbg :=
  .record c!"RegExpLiteral" [(c!"pattern", .str r.pattern),
      (c!"flags", .vec ((alphabetize r.flags).map .chr))]

/-- token.rs:145-151 `Debug for StringLiteral`: without the source. -/
def StringLiteral.dbg (s : StringLiteral) : Dbg := .record c!"StringLiteral" [(c!"value",
      .str s.value)]

/-- token.rs:169-175 `Debug for NumberLiteral`: without the source. -/
def NumberLiteral.dbg [DebugStd] (n : NumberLiteral) : Dbg :=
  .record c!"NumberLiteral" [(c!"value", .word (DebugStd.num n.value))]

/-- id.rs:8-12 derived `Debug for Id`. -/
def Id.dbg (i : Id) : Dbg := .record c!"Id" [(c!"location", i.location.dbg), (c!"name", i.name.dbg)]

/-- obj.rs:10-14 derived `Debug for DotKey`. -/
def DotKey.dbg (k : DotKey) : Dbg :=
  .record c!"DotKey" [(c!"location", k.location.dbg), (c!"value", .str k.value)]

/-- obj.rs:27-32 derived `Debug for PropKey`. -/
def PropKey.dbg [DebugStd] : PropKey → Dbg
  | .id l s => .tup c!"Id" [l.dbg, .str s]
  | .string l s => .tup c!"String" [l.dbg, s.dbg]
  | .number l n => .tup c!"Number" [l.dbg, n.dbg]

/-- stmt.rs:122-127 derived `Debug for Dir`. -/
def Dir.dbg (d : Dir) : Dbg :=
  .record c!"Dir" [(c!"location", d.location.dbg), (c!"string", d.string.dbg),
      (c!"semi", d.semi.dbg)]

namespace Ast

/-- The entries of a `Vec` become a list; other nodes stay as they are. -/
def wrap (c : Cat) (d : Dbg) : Dbg :=
  match c with
  | .list _ => .list d
  | _ => d

/-- `Debug` of syntax trees, as calls of the builders; for a `Vec`, its entries (see
`wrap`).  For `Expr` it is expr.rs:99-134, which leaves out locations and prints the
arguments of `new` as if they were never left out.  For the other types it is derived:
see the declarations cited in `Ast`. -/
def entries [DebugStd] : {c : Cat} → Ast c → Dbg
  | _, .nil => .nil
  | _, @cons c h t => .cons [] (wrap c (entries h)) (entries t)
  | _, .none => .word c!"None"
  | _, @some c x => .tup c!"Some" [wrap c (entries x)]
  | _, .ident i => i.dbg
  | _, .key k => k.dbg
  | _, .iExpr e => .tup c!"Expr" [entries e]
  | _, .iSpread l e => .tup c!"Spread" [Loc.dbg l, entries e]
  | _, .eThis _ => .word c!"This"
  | _, .eId i => .tup c!"Id" [i.dbg]
  | _, .eArr _ es => .tup c!"Arr" [.list (entries es)]
  | _, .eObj _ ps => .tup c!"Obj" [.list (entries ps)]
  | _, .eFun f => .tup c!"Fun" [entries f]
  | _, .eSeq _ es => .tup c!"Seq" [.list (entries es)]
  | _, .eUnop _ op e => .tup c!"Unop" [op.dbg UnopTag.debug, entries e]
  | _, .eBinop _ op a b => .tup c!"Binop" [op.dbg BinopTag.debug, entries a, entries b]
  | _, .eLogop _ op a b => .tup c!"Logop" [op.dbg LogopTag.debug, entries a, entries b]
  | _, .ePreInc _ t => .tup c!"PreInc" [entries t]
  | _, .ePostInc _ t => .tup c!"PostInc" [entries t]
  | _, .ePreDec _ t => .tup c!"PreDec" [entries t]
  | _, .ePostDec _ t => .tup c!"PostDec" [entries t]
  | _, .eAssign _ p e => .tup c!"Assign" [entries p, entries e]
  | _, .eBinAssign _ op t e => .tup c!"BinAssign" [op.dbg AssopTag.debug, entries t, entries e]
  | _, .eCond _ test thn alt => .tup c!"Cond" [entries test, entries thn, entries alt]
  | _, .eCall _ callee args => .tup c!"Call" [entries callee, .list (entries args)]
  | _, .eNew _ callee .none => .tup c!"New" [entries callee, .list .nil]
  | _, .eNew _ callee (.some args) => .tup c!"New" [entries callee, .list (entries args)]
  | _, .eDot _ e k => .tup c!"Dot" [entries e, k.dbg]
  | _, .eBrack _ e prop => .tup c!"Brack" [entries e, entries prop]
  | _, .eNewTarget _ => .word c!"NewTarget"
  | _, .eTrue _ => .word c!"True"
  | _, .eFalse _ => .word c!"False"
  | _, .eNull _ => .word c!"Null"
  | _, .eNumber _ n => .tup c!"Number" [n.dbg]
  | _, .eRegExp _ r => .tup c!"RegExp" [r.dbg]
  | _, .eString _ s => .tup c!"String" [s.dbg]
  | _, .tId i => .tup c!"Id" [i.dbg]
  | _, .tDot l e k => .tup c!"Dot" [Loc.dbg l, entries e, k.dbg]
  | _, .tBrack l e prop => .tup c!"Brack" [Loc.dbg l, entries e, entries prop]
  | _, @pSimple c t => .tup c!"Simple" [wrap c (entries t)]
  | _, .pCompound p => .tup c!"Compound" [entries p]
  | _, .cArr l es r => .tup c!"Arr" [Loc.dbg l, .list (entries es), entries r]
  | _, .cObj l ps => .tup c!"Obj" [Loc.dbg l, .list (entries ps)]
  | _, .restPatt l p => .record c!"RestPatt" [(c!"location", Loc.dbg l), (c!"patt", entries p)]
  | _, .ppRegular l k p => .tup c!"Regular" [Loc.dbg l, k.dbg, entries p]
  | _, .ppShorthand i => .tup c!"Shorthand" [i.dbg]
  | _, .prRegular l k v => .tup c!"Regular" [Loc.dbg l, k.dbg, entries v]
  | _, .prMethod f => .tup c!"Method" [entries f]
  | _, .prShorthand i => .tup c!"Shorthand" [i.dbg]
  | _, .vInit e => .tup c!"Init" [entries e]
  | _, .vGet l b => .tup c!"Get" [Loc.dbg l, entries b]
  | _, .vSet l p b => .tup c!"Set" [Loc.dbg l, entries p, entries b]
  | _, @func c l id ps b gen => .record c!"Fun" [(c!"location", Loc.dbg l),
      (c!"id", wrap c (entries id)), (c!"params", entries ps), (c!"body", entries b), (c!"generator", boolDbg gen)]
  | _, .params l ps r => .record c!"Params" [(c!"location", Loc.dbg l),
      (c!"list", .list (entries ps)), (c!"rest", entries r)]
  | _, .body l dirs items => .record c!"Body" [(c!"location", Loc.dbg l),
      (c!"dirs", .vec (dirs.map Dir.dbg)), (c!"items", .list (entries items))]
  | _, .siDecl d => .tup c!"Decl" [entries d]
  | _, .siStmt s => .tup c!"Stmt" [entries s]
  | _, .miImport i => .tup c!"Import" [entries i]
  | _, .miExport e => .tup c!"Export" [entries e]
  | _, .miItem i => .tup c!"StmtListItem" [entries i]
  | _, .importForEffect l s => .tup c!"ForEffect" [Loc.dbg l, s.dbg]
  | _, .exportVar l ds semi => .tup c!"Var" [Loc.dbg l, .list (entries ds), semi.dbg]
  | _, .exportDecl d => .tup c!"Decl" [entries d]
  | _, .dFun f => .tup c!"Fun" [entries f]
  | _, .dLet l ds semi => .tup c!"Let" [Loc.dbg l, .list (entries ds), semi.dbg]
  | _, .dConst l ds semi => .tup c!"Const" [Loc.dbg l, .list (entries ds), semi.dbg]
  | _, .dtSimple l i init => .tup c!"Simple" [Loc.dbg l, i.dbg, entries init]
  | _, .dtCompound l p init => .tup c!"Compound" [Loc.dbg l, entries p, entries init]
  | _, .constDtor l p value => .record c!"ConstDtor" [(c!"location", Loc.dbg l),
      (c!"patt", entries p), (c!"value", entries value)]
  | _, .block l items => .record c!"Block" [(c!"location", Loc.dbg l),
      (c!"items", .list (entries items))]
  | _, .sEmpty l => .tup c!"Empty" [Loc.dbg l]
  | _, .sBlock b => .tup c!"Block" [entries b]
  | _, .sVar l ds semi => .tup c!"Var" [Loc.dbg l, .list (entries ds), semi.dbg]
  | _, .sExpr l e semi => .tup c!"Expr" [Loc.dbg l, entries e, semi.dbg]
  | _, .sIf l test thn alt => .tup c!"If" [Loc.dbg l, entries test, entries thn, entries alt]
  | _, .sLabel l i s => .tup c!"Label" [Loc.dbg l, i.dbg, entries s]
  | _, .sBreak l i semi => .tup c!"Break" [Loc.dbg l, Dbg.opt Id.dbg i, semi.dbg]
  | _, .sCont l i semi => .tup c!"Cont" [Loc.dbg l, Dbg.opt Id.dbg i, semi.dbg]
  | _, .sWith l obj s => .tup c!"With" [Loc.dbg l, entries obj, entries s]
  | _, .sSwitch l disc cases => .tup c!"Switch" [Loc.dbg l, entries disc, .list (entries cases)]
  | _, .sReturn l arg semi => .tup c!"Return" [Loc.dbg l, entries arg, semi.dbg]
  | _, .sThrow l arg semi => .tup c!"Throw" [Loc.dbg l, entries arg, semi.dbg]
  | _, .sTry l b c f => .tup c!"Try" [Loc.dbg l, entries b, entries c, entries f]
  | _, .sWhile l test s => .tup c!"While" [Loc.dbg l, entries test, entries s]
  | _, .sDoWhile l s test semi => .tup c!"DoWhile" [Loc.dbg l, entries s, entries test, semi.dbg]
  | _, .sFor l head test update s => .tup c!"For" [Loc.dbg l, entries head, entries test,
      entries update, entries s]
  | _, .sForIn l head obj s => .tup c!"ForIn" [Loc.dbg l, entries head, entries obj, entries s]
  | _, .sForOf l head obj s => .tup c!"ForOf" [Loc.dbg l, entries head, entries obj, entries s]
  | _, .sDebugger l semi => .tup c!"Debugger" [Loc.dbg l, semi.dbg]
  | _, .fhVar l ds => .tup c!"Var" [Loc.dbg l, .list (entries ds)]
  | _, .fhLet l ds => .tup c!"Let" [Loc.dbg l, .list (entries ds)]
  | _, .fhConst l ds => .tup c!"Const" [Loc.dbg l, .list (entries ds)]
  | _, .fhExpr l e => .tup c!"Expr" [Loc.dbg l, entries e]
  | _, .fiVarInit l i init => .tup c!"VarInit" [Loc.dbg l, i.dbg, entries init]
  | _, .fiVar l p => .tup c!"Var" [Loc.dbg l, entries p]
  | _, .fiLet l p => .tup c!"Let" [Loc.dbg l, entries p]
  | _, .fiConst l p => .tup c!"Const" [Loc.dbg l, entries p]
  | _, .fiPatt p => .tup c!"Patt" [entries p]
  | _, .foVar l p => .tup c!"Var" [Loc.dbg l, entries p]
  | _, .foLet l p => .tup c!"Let" [Loc.dbg l, entries p]
  | _, .foConst l p => .tup c!"Const" [Loc.dbg l, entries p]
  | _, .foPatt p => .tup c!"Patt" [entries p]
  | _, .catchClause l p b => .record c!"Catch" [(c!"location", Loc.dbg l),
      (c!"param", entries p), (c!"body", entries b)]
  | _, .caseClause l test items => .record c!"Case" [(c!"location", Loc.dbg l),
      (c!"test", entries test), (c!"body", .list (entries items))]

/-- `Debug` of a syntax tree, as calls of the builders. -/
def dbg [DebugStd] {c : Cat} (x : Ast c) : Dbg := wrap c x.entries

/-- The text of a syntax tree with `{:?}`. -/
def debug [DebugStd] {c : Cat} (x : Ast c) : Str := x.dbg.text

end Ast

end Esprit
