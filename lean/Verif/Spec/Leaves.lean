import Verif.Spec.Tree

/-!
Specification of the leaves of a tree: the words and literals written in it, in
order, and the tokens they come from.
-/

namespace Esprit

/-- A word (identifier, label, property name, `this`, `null`, `true`, `false`) or
a literal. -/
inductive Leaf where
  | word (s : Str)
  | number (n : NumberLiteral)
  | string (s : StringLiteral)
  | regExp (r : RegExpLiteral)
  deriving DecidableEq

/-- The leaf of a property name. -/
def PropKey.leaf : PropKey → Leaf
  | .id _ s => .word s
  | .string _ s => .string s
  | .number _ n => .number n

/-- The leaves of a tree in source order, followed by `k`. -/
def Ast.leaves : {c : Cat} → Ast c → List Leaf → List Leaf
  | _, .nil, k => k
  | _, .cons h t, k => leaves h (leaves t k)
  | _, .none, k => k
  | _, .some x, k => leaves x k
  | _, .ident i, k => .word i.name.intoString :: k
  | _, .key p, k => p.leaf :: k
  | _, .iExpr e, k => leaves e k
  | _, .iSpread _ e, k => leaves e k
  | _, .eThis _, k => .word c!"this" :: k
  | _, .eId i, k => .word i.name.intoString :: k
  | _, .eArr _ es, k => leaves es k
  | _, .eObj _ ps, k => leaves ps k
  | _, .eFun f, k => leaves f k
  | _, .eSeq _ es, k => leaves es k
  | _, .eUnop _ _ e, k => leaves e k
  | _, .eBinop _ _ a b, k => leaves a (leaves b k)
  | _, .eLogop _ _ a b, k => leaves a (leaves b k)
  | _, .ePreInc _ t, k => leaves t k
  | _, .ePostInc _ t, k => leaves t k
  | _, .ePreDec _ t, k => leaves t k
  | _, .ePostDec _ t, k => leaves t k
  | _, .eAssign _ p e, k => leaves p (leaves e k)
  | _, .eBinAssign _ _ t e, k => leaves t (leaves e k)
  | _, .eCond _ test thn alt, k => leaves test (leaves thn (leaves alt k))
  | _, .eCall _ callee args, k => leaves callee (leaves args k)
  | _, .eNew _ callee args, k => leaves callee (leaves args k)
  | _, .eDot _ e p, k => leaves e (.word p.value :: k)
  | _, .eBrack _ e prop, k => leaves e (leaves prop k)
  | _, .eNewTarget _, k => k
  | _, .eTrue _, k => .word c!"true" :: k
  | _, .eFalse _, k => .word c!"false" :: k
  | _, .eNull _, k => .word c!"null" :: k
  | _, .eNumber _ n, k => .number n :: k
  | _, .eRegExp _ r, k => .regExp r :: k
  | _, .eString _ s, k => .string s :: k
  | _, .tId i, k => .word i.name.intoString :: k
  | _, .tDot _ e p, k => leaves e (.word p.value :: k)
  | _, .tBrack _ e prop, k => leaves e (leaves prop k)
  | _, .pSimple t, k => leaves t k
  | _, .pCompound p, k => leaves p k
  | _, .cArr _ es r, k => leaves es (leaves r k)
  | _, .cObj _ ps, k => leaves ps k
  | _, .restPatt _ p, k => leaves p k
  | _, .ppRegular _ p q, k => p.leaf :: leaves q k
  | _, .ppShorthand i, k => .word i.name.intoString :: k
  | _, .prRegular _ p v, k => p.leaf :: leaves v k
  | _, .prMethod f, k => leaves f k
  | _, .prShorthand i, k => .word i.name.intoString :: k
  | _, .vInit e, k => leaves e k
  | _, .vGet _ b, k => leaves b k
  | _, .vSet _ p b, k => leaves p (leaves b k)
  | _, .func _ id ps b _, k => leaves id (leaves ps (leaves b k))
  | _, .params _ ps r, k => leaves ps (leaves r k)
  | _, .body _ ds items, k => ds.map (fun d => Leaf.string d.string) ++ leaves items k
  | _, .siDecl d, k => leaves d k
  | _, .siStmt s, k => leaves s k
  | _, .miImport i, k => leaves i k
  | _, .miExport e, k => leaves e k
  | _, .miItem i, k => leaves i k
  | _, .importForEffect _ s, k => .string s :: k
  | _, .exportVar _ ds _, k => leaves ds k
  | _, .exportDecl d, k => leaves d k
  | _, .dFun f, k => leaves f k
  | _, .dLet _ ds _, k => leaves ds k
  | _, .dConst _ ds _, k => leaves ds k
  | _, .dtSimple _ i init, k => .word i.name.intoString :: leaves init k
  | _, .dtCompound _ p init, k => leaves p (leaves init k)
  | _, .constDtor _ p value, k => leaves p (leaves value k)
  | _, .block _ items, k => leaves items k
  | _, .sEmpty _, k => k
  | _, .sBlock b, k => leaves b k
  | _, .sVar _ ds _, k => leaves ds k
  | _, .sExpr _ e _, k => leaves e k
  | _, .sIf _ test thn alt, k => leaves test (leaves thn (leaves alt k))
  | _, .sLabel _ i s, k => .word i.name.intoString :: leaves s k
  | _, .sBreak _ i _, k => i.toList.map (fun i => Leaf.word i.name.intoString) ++ k
  | _, .sCont _ i _, k => i.toList.map (fun i => Leaf.word i.name.intoString) ++ k
  | _, .sWith _ obj s, k => leaves obj (leaves s k)
  | _, .sSwitch _ disc cases, k => leaves disc (leaves cases k)
  | _, .sReturn _ arg _, k => leaves arg k
  | _, .sThrow _ arg _, k => leaves arg k
  | _, .sTry _ b c f, k => leaves b (leaves c (leaves f k))
  | _, .sWhile _ test s, k => leaves test (leaves s k)
  | _, .sDoWhile _ s test _, k => leaves s (leaves test k)
  | _, .sFor _ head test update s, k => leaves head (leaves test (leaves update (leaves s k)))
  | _, .sForIn _ head obj s, k => leaves head (leaves obj (leaves s k))
  | _, .sForOf _ head obj s, k => leaves head (leaves obj (leaves s k))
  | _, .sDebugger _ _, k => k
  | _, .fhVar _ ds, k => leaves ds k
  | _, .fhLet _ ds, k => leaves ds k
  | _, .fhConst _ ds, k => leaves ds k
  | _, .fhExpr _ e, k => leaves e k
  | _, .fiVarInit _ i init, k => .word i.name.intoString :: leaves init k
  | _, .fiVar _ p, k => leaves p k
  | _, .fiLet _ p, k => leaves p k
  | _, .fiConst _ p, k => leaves p k
  | _, .fiPatt p, k => leaves p k
  | _, .foVar _ p, k => leaves p k
  | _, .foLet _ p, k => leaves p k
  | _, .foConst _ p, k => leaves p k
  | _, .foPatt p, k => leaves p k
  | _, .catchClause _ p b, k => leaves p (leaves b k)
  | _, .caseClause _ test items, k => leaves test (leaves items k)

/-- The token is the leaf. -/
def Token.IsLeaf (t : Token) : Leaf → Prop
  | .word s => (∃ n : Name, t.value = .identifier n ∧ n.intoString = s) ∨
      ∃ w : Reserved, t.value = .reserved w ∧ w.name = s
  | .number n => t.value = .number n
  | .string s => t.value = .string s
  | .regExp r => t.value = .regExp r

/-- The reserved words that stand for values. -/
def valueWords : List Reserved := [.this, .null, .true, .false]

/-- The identifiers with a meaning in some productions. -/
def keywordAtoms : List Atom := [.«let», .get, .set, .of, .target]

/-- The tokens that no leaf corresponds to: operators, punctuation, the reserved
words that are not values, and contextual keywords. -/
def Token.Silent (t : Token) : Prop :=
  match t.value with
  | .number _ | .string _ | .regExp _ => False
  | .identifier n => ∃ a ∈ keywordAtoms, n = .atom a
  | .reserved w => w ∉ valueWords
  | _ => True

/-- The leaves of a sequence of tokens: each token is a leaf or silent. -/
inductive Yields : List Token → List Leaf → Prop where
  | nil : Yields [] []
  | leaf {t : Token} {ts : List Token} {l : Leaf} {ls : List Leaf} : t.IsLeaf l → Yields ts ls →
      Yields (t :: ts) (l :: ls)
  | silent {t : Token} {ts : List Token} {ls : List Leaf} : t.Silent → Yields ts ls →
      Yields (t :: ts) ls

end Esprit
