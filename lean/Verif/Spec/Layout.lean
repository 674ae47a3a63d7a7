import Verif.Spec.Tokens
import Verif.Model.Parser.Program

/-!
Specification of layout.  The layout of a source is its white space, its line
terminators and its comments; it shows in the positions of the tokens, and in what
is computed from them.  Two results are the same up to layout if they are equal once
every position in them is moved to the origin.
-/

namespace Esprit

/-- The empty span at the origin. -/
def Span.zero : Span := ⟨.origin, .origin⟩

/-- A location slot, with its span (if any) moved to the origin. -/
def blurLoc (l : Loc) : Loc := l.map fun _ => .zero

/-- The token, moved to the origin: what remains is its value, and whether a line
terminator precedes it. -/
def Token.blur (t : Token) : Token := { t with location := .zero }

/-- The semicolon, moved to the origin: what remains is whether it was inserted. -/
def Semi.blur : Semi → Semi
  | .inserted => .inserted
  | .explicit p => .explicit (p.map fun _ => .origin)

/-- The identifier, moved to the origin. -/
def Id.blur (i : Id) : Id := { i with location := blurLoc i.location }

/-- The property name after a dot, moved to the origin. -/
def DotKey.blur (k : DotKey) : DotKey := { k with location := blurLoc k.location }

/-- The property name, moved to the origin. -/
def PropKey.blur (k : PropKey) : PropKey := k.setLoc (blurLoc k.loc)

/-- The operator, moved to the origin. -/
def Op.blur {T : Type} (o : Op T) : Op T := { o with location := blurLoc o.location }

/-- The directive, moved to the origin. -/
def Dir.blur (d : Dir) : Dir :=
  { location := blurLoc d.location, string := d.string, semi := d.semi.blur }

/-- The tree, with all its positions moved to the origin. -/
def Ast.blur : {c : Cat} → Ast c → Ast c
  | _, .nil => .nil
  | _, .cons h t => .cons (blur h) (blur t)
  | _, .none => .none
  | _, .some x => .some (blur x)
  | _, .ident i => .ident i.blur
  | _, .key k => .key k.blur
  | _, .iExpr e => .iExpr (blur e)
  | _, .iSpread l e => .iSpread (blurLoc l) (blur e)
  | _, .eThis l => .eThis (blurLoc l)
  | _, .eId i => .eId i.blur
  | _, .eArr l es => .eArr (blurLoc l) (blur es)
  | _, .eObj l ps => .eObj (blurLoc l) (blur ps)
  | _, .eFun f => .eFun (blur f)
  | _, .eSeq l es => .eSeq (blurLoc l) (blur es)
  | _, .eUnop l op e => .eUnop (blurLoc l) op.blur (blur e)
  | _, .eBinop l op a b => .eBinop (blurLoc l) op.blur (blur a) (blur b)
  | _, .eLogop l op a b => .eLogop (blurLoc l) op.blur (blur a) (blur b)
  | _, .ePreInc l t => .ePreInc (blurLoc l) (blur t)
  | _, .ePostInc l t => .ePostInc (blurLoc l) (blur t)
  | _, .ePreDec l t => .ePreDec (blurLoc l) (blur t)
  | _, .ePostDec l t => .ePostDec (blurLoc l) (blur t)
  | _, .eAssign l p e => .eAssign (blurLoc l) (blur p) (blur e)
  | _, .eBinAssign l op t e => .eBinAssign (blurLoc l) op.blur (blur t) (blur e)
  | _, .eCond l test thn alt => .eCond (blurLoc l) (blur test) (blur thn) (blur alt)
  | _, .eCall l callee args => .eCall (blurLoc l) (blur callee) (blur args)
  | _, .eNew l callee args => .eNew (blurLoc l) (blur callee) (blur args)
  | _, .eDot l e k => .eDot (blurLoc l) (blur e) k.blur
  | _, .eBrack l e prop => .eBrack (blurLoc l) (blur e) (blur prop)
  | _, .eNewTarget l => .eNewTarget (blurLoc l)
  | _, .eTrue l => .eTrue (blurLoc l)
  | _, .eFalse l => .eFalse (blurLoc l)
  | _, .eNull l => .eNull (blurLoc l)
  | _, .eNumber l n => .eNumber (blurLoc l) n
  | _, .eRegExp l r => .eRegExp (blurLoc l) r
  | _, .eString l s => .eString (blurLoc l) s
  | _, .tId i => .tId i.blur
  | _, .tDot l e k => .tDot (blurLoc l) (blur e) k.blur
  | _, .tBrack l e prop => .tBrack (blurLoc l) (blur e) (blur prop)
  | _, .pSimple t => .pSimple (blur t)
  | _, .pCompound p => .pCompound (blur p)
  | _, .cArr l es r => .cArr (blurLoc l) (blur es) (blur r)
  | _, .cObj l ps => .cObj (blurLoc l) (blur ps)
  | _, .restPatt l p => .restPatt (blurLoc l) (blur p)
  | _, .ppRegular l k p => .ppRegular (blurLoc l) k.blur (blur p)
  | _, .ppShorthand i => .ppShorthand i.blur
  | _, .prRegular l k v => .prRegular (blurLoc l) k.blur (blur v)
  | _, .prMethod f => .prMethod (blur f)
  | _, .prShorthand i => .prShorthand i.blur
  | _, .vInit e => .vInit (blur e)
  | _, .vGet l b => .vGet (blurLoc l) (blur b)
  | _, .vSet l p b => .vSet (blurLoc l) (blur p) (blur b)
  | _, .func l id ps b gen => .func (blurLoc l) (blur id) (blur ps) (blur b) gen
  | _, .params l ps r => .params (blurLoc l) (blur ps) (blur r)
  | _, .body l dirs items => .body (blurLoc l) (dirs.map Dir.blur) (blur items)
  | _, .siDecl d => .siDecl (blur d)
  | _, .siStmt s => .siStmt (blur s)
  | _, .miImport i => .miImport (blur i)
  | _, .miExport e => .miExport (blur e)
  | _, .miItem i => .miItem (blur i)
  | _, .importForEffect l s => .importForEffect (blurLoc l) s
  | _, .exportVar l ds semi => .exportVar (blurLoc l) (blur ds) semi.blur
  | _, .exportDecl d => .exportDecl (blur d)
  | _, .dFun f => .dFun (blur f)
  | _, .dLet l ds semi => .dLet (blurLoc l) (blur ds) semi.blur
  | _, .dConst l ds semi => .dConst (blurLoc l) (blur ds) semi.blur
  | _, .dtSimple l i init => .dtSimple (blurLoc l) i.blur (blur init)
  | _, .dtCompound l p init => .dtCompound (blurLoc l) (blur p) (blur init)
  | _, .constDtor l p value => .constDtor (blurLoc l) (blur p) (blur value)
  | _, .block l items => .block (blurLoc l) (blur items)
  | _, .sEmpty l => .sEmpty (blurLoc l)
  | _, .sBlock b => .sBlock (blur b)
  | _, .sVar l ds semi => .sVar (blurLoc l) (blur ds) semi.blur
  | _, .sExpr l e semi => .sExpr (blurLoc l) (blur e) semi.blur
  | _, .sIf l test thn alt => .sIf (blurLoc l) (blur test) (blur thn) (blur alt)
  | _, .sLabel l i s => .sLabel (blurLoc l) i.blur (blur s)
  | _, .sBreak l i semi => .sBreak (blurLoc l) (i.map Id.blur) semi.blur
  | _, .sCont l i semi => .sCont (blurLoc l) (i.map Id.blur) semi.blur
  | _, .sWith l obj s => .sWith (blurLoc l) (blur obj) (blur s)
  | _, .sSwitch l disc cases => .sSwitch (blurLoc l) (blur disc) (blur cases)
  | _, .sReturn l arg semi => .sReturn (blurLoc l) (blur arg) semi.blur
  | _, .sThrow l arg semi => .sThrow (blurLoc l) (blur arg) semi.blur
  | _, .sTry l b c f => .sTry (blurLoc l) (blur b) (blur c) (blur f)
  | _, .sWhile l test s => .sWhile (blurLoc l) (blur test) (blur s)
  | _, .sDoWhile l s test semi => .sDoWhile (blurLoc l) (blur s) (blur test) semi.blur
  | _, .sFor l head test update s => .sFor (blurLoc l) (blur head) (blur test) (blur update) (blur s)
  | _, .sForIn l head obj s => .sForIn (blurLoc l) (blur head) (blur obj) (blur s)
  | _, .sForOf l head obj s => .sForOf (blurLoc l) (blur head) (blur obj) (blur s)
  | _, .sDebugger l semi => .sDebugger (blurLoc l) semi.blur
  | _, .fhVar l ds => .fhVar (blurLoc l) (blur ds)
  | _, .fhLet l ds => .fhLet (blurLoc l) (blur ds)
  | _, .fhConst l ds => .fhConst (blurLoc l) (blur ds)
  | _, .fhExpr l e => .fhExpr (blurLoc l) (blur e)
  | _, .fiVarInit l i init => .fiVarInit (blurLoc l) i.blur (blur init)
  | _, .fiVar l p => .fiVar (blurLoc l) (blur p)
  | _, .fiLet l p => .fiLet (blurLoc l) (blur p)
  | _, .fiConst l p => .fiConst (blurLoc l) (blur p)
  | _, .fiPatt p => .fiPatt (blur p)
  | _, .foVar l p => .foVar (blurLoc l) (blur p)
  | _, .foLet l p => .foLet (blurLoc l) (blur p)
  | _, .foConst l p => .foConst (blurLoc l) (blur p)
  | _, .foPatt p => .foPatt (blur p)
  | _, .catchClause l p b => .catchClause (blurLoc l) (blur p) (blur b)
  | _, .caseClause l test items => .caseClause (blurLoc l) (blur test) (blur items)

/-- The error of a failed conversion, moved to the origin. -/
def CoverError.blur : CoverError → CoverError
  | .invalidAssignTarget l => .invalidAssignTarget (blurLoc l)
  | .invalidPropPatt l => .invalidPropPatt (blurLoc l)

/-- The error, with all its positions moved to the origin: what remains is its kind,
and what it says about tokens, identifiers and literals. -/
def PError.blur : PError → PError
  | .unexpectedToken t => .unexpectedToken t.blur
  | .failedASI t => .failedASI t.blur
  | .lexError e => .lexError e
  | .topLevelReturn _ => .topLevelReturn .zero
  | .illegalBreak t => .illegalBreak t.blur
  | .illegalContinue t => .illegalContinue t.blur
  | .invalidLabel i => .invalidLabel i.blur
  | .invalidLabelType i => .invalidLabelType i.blur
  | .contextualKeyword _ a => .contextualKeyword .zero a
  | .illegalStrictBinding _ a => .illegalStrictBinding .zero a
  | .unexpectedDirective l s => .unexpectedDirective (blurLoc l) s
  | .unexpectedModule l => .unexpectedModule (blurLoc l)
  | .importInScript i => .importInScript i.blur
  | .exportInScript e => .exportInScript e.blur
  | .forOfLetExpr _ => .forOfLetExpr .zero
  | .duplicateDefault t => .duplicateDefault t.blur
  | .strictWith t => .strictWith t.blur
  | .throwArgument t => .throwArgument t.blur
  | .orphanTry t => .orphanTry t.blur
  | .invalidLHS l e => .invalidLHS (blurLoc l) e.blur
  | .unsupportedFeature s => .unsupportedFeature s
  | .compoundParamWithUseStrict p => .compoundParamWithUseStrict p.blur

/-- The deferred check, moved to the origin. -/
def Check.blur : Check → Check
  | .strict e => .strict e.blur
  | .module e => .module e.blur

/-- The result of `program`, moved to the origin. -/
def Program.blur : Program → Program
  | .ambiguous checks script => .ambiguous (checks.map Check.blur) script.blur
  | .moduleCode m => .moduleCode m.blur

/-- Two results of reading tokens that are the same up to positions. -/
def SameRead : Res LexError (List Token × Lexer) → Res LexError (List Token × Lexer) → Prop
  | .ok (ts, _), .ok (ts', _) => ts.map Token.blur = ts'.map Token.blur
  | .err e, .err e' => e = e'
  | .panic p, .panic p' => p = p'
  | _, _ => False

/-- The tokens of the two sources, read one after the other in the modes `ops`, are
the same up to positions; if one of them is malformed, then so is the other at the
same place, in the same way. -/
def SameTokens [Env] (ops : List Bool) (s s' : Str) : Prop :=
  ∀ i, SameRead (readTokens s (ops.take i)) (readTokens s' (ops.take i))

/-- Two outcomes of a parse that are the same up to positions: equal trees, equal
errors or equal panics. -/
def SameOutcome {α : Type} (blur : α → α) : Res PError α → Res PError α → Prop
  | .ok a, .ok a' => blur a = blur a'
  | .err e, .err e' => e.blur = e'.blur
  | .panic p, .panic p' => p = p'
  | _, _ => False

section Separators

open Lex

/-- The source in which the text between the token `t`, the `i`-th of the tokens `ts`,
and the token before it (or the beginning of the source) is replaced by `w`. -/
def reseparate (s : Str) (ts : List Token) (i : Nat) (t : Token) (w : Str) : Str :=
  s.take (prevEnd ts i) ++ w ++ s.drop t.location.start.offset

/-- `w` is another separator for the token `t`, the `i`-th of the tokens `ts` of `s`: it is
a nonempty sequence of white space, line terminators and comments, and contains a line
terminator just if the old separator does.  A comment must not be put directly behind
`/`, nor `<!--` directly behind `<`; and where `w` ends the line, `-->` must not follow. -/
structure Reseparates [Env] (s : Str) (ts : List Token) (i : Nat) (t : Token) (w : Str) : Prop where
  token : ts[i]? = some t
  noEof : ∀ p ∈ ts.take i, p.value ≠ .eof
  nonempty : w ≠ []
  trivia : ∃ e, Trivia (i == 0) w (s.drop t.location.start.offset) e ∧
    (e = true → ¬ c!"-->" <+: s.drop t.location.start.offset)
  newline : hasNewline w = t.newline
  slash : ∀ p, (ts.take i).getLast? = some p → p.value = .slash → w.head? ≠ some '/'
  angle : ∀ p, (ts.take i).getLast? = some p → p.value = .lAngle → w.head? ≠ some '<'

end Separators

end Esprit
