import Verif.Spec.Tree

/-! Specification of locations: the spans that a tree carries. -/

namespace Esprit

open ReaderSpec

/-- The location slots of a node itself: its own, and those of the identifiers,
operators, property names and directives in it. -/
def Ast.ownLocs : {c : Cat} → Ast c → List Loc
  | _, .ident i => [i.location]
  | _, .key k => [k.loc]
  | _, .iSpread l _ => [l]
  | _, .eThis l => [l]
  | _, .eId i => [i.location]
  | _, .eArr l _ => [l]
  | _, .eObj l _ => [l]
  | _, .eSeq l _ => [l]
  | _, .eUnop l op _ => [l, op.location]
  | _, .eBinop l op _ _ => [l, op.location]
  | _, .eLogop l op _ _ => [l, op.location]
  | _, .ePreInc l _ => [l]
  | _, .ePostInc l _ => [l]
  | _, .ePreDec l _ => [l]
  | _, .ePostDec l _ => [l]
  | _, .eAssign l _ _ => [l]
  | _, .eBinAssign l op _ _ => [l, op.location]
  | _, .eCond l _ _ _ => [l]
  | _, .eCall l _ _ => [l]
  | _, .eNew l _ _ => [l]
  | _, .eDot l _ k => [l, k.location]
  | _, .eBrack l _ _ => [l]
  | _, .eNewTarget l => [l]
  | _, .eTrue l => [l]
  | _, .eFalse l => [l]
  | _, .eNull l => [l]
  | _, .eNumber l _ => [l]
  | _, .eRegExp l _ => [l]
  | _, .eString l _ => [l]
  | _, .tId i => [i.location]
  | _, .tDot l _ k => [l, k.location]
  | _, .tBrack l _ _ => [l]
  | _, .cArr l _ _ => [l]
  | _, .cObj l _ => [l]
  | _, .restPatt l _ => [l]
  | _, .ppRegular l k _ => [l, k.loc]
  | _, .ppShorthand i => [i.location]
  | _, .prRegular l k _ => [l, k.loc]
  | _, .prShorthand i => [i.location]
  | _, .vGet l _ => [l]
  | _, .vSet l _ _ => [l]
  | _, .func l _ _ _ _ => [l]
  | _, .params l _ _ => [l]
  | _, .body l ds _ => l :: ds.map Dir.location
  | _, .importForEffect l _ => [l]
  | _, .exportVar l _ _ => [l]
  | _, .dLet l _ _ => [l]
  | _, .dConst l _ _ => [l]
  | _, .dtSimple l i _ => [l, i.location]
  | _, .dtCompound l _ _ => [l]
  | _, .constDtor l _ _ => [l]
  | _, .block l _ => [l]
  | _, .sEmpty l => [l]
  | _, .sVar l _ _ => [l]
  | _, .sExpr l _ _ => [l]
  | _, .sIf l _ _ _ => [l]
  | _, .sLabel l i _ => [l, i.location]
  | _, .sBreak l i _ => l :: i.toList.map Id.location
  | _, .sCont l i _ => l :: i.toList.map Id.location
  | _, .sWith l _ _ => [l]
  | _, .sSwitch l _ _ => [l]
  | _, .sReturn l _ _ => [l]
  | _, .sThrow l _ _ => [l]
  | _, .sTry l _ _ _ => [l]
  | _, .sWhile l _ _ => [l]
  | _, .sDoWhile l _ _ _ => [l]
  | _, .sFor l _ _ _ _ => [l]
  | _, .sForIn l _ _ _ => [l]
  | _, .sForOf l _ _ _ => [l]
  | _, .sDebugger l _ => [l]
  | _, .fhVar l _ => [l]
  | _, .fhLet l _ => [l]
  | _, .fhConst l _ => [l]
  | _, .fhExpr l _ => [l]
  | _, .fiVarInit l i _ => [l, i.location]
  | _, .fiVar l _ => [l]
  | _, .fiLet l _ => [l]
  | _, .fiConst l _ => [l]
  | _, .foVar l _ => [l]
  | _, .foLet l _ => [l]
  | _, .foConst l _ => [l]
  | _, .catchClause l _ _ => [l]
  | _, .caseClause l _ _ => [l]
  | _, _ => []

/-- The location is present, and is a span of the text `s`: it starts no later
than it ends, and lines and columns are those of the offsets. -/
def Loc.Within (s : Str) (l : Loc) : Prop :=
  ∃ p q, l = some ⟨p, q⟩ ∧ p.offset ≤ q.offset ∧ q.offset ≤ s.length ∧
    PosnAt s p.offset p ∧ PosnAt s q.offset q

end Esprit
