import Verif.Model.Untrack

/-! Untracking is a congruence. -/

set_option autoImplicit true
set_option relaxedAutoImplicit true

namespace Esprit

namespace Ut

theorem cons (h0 : Ast.untrack x0 = Ast.untrack y0) (h1 : Ast.untrack x1 = Ast.untrack y1) :
    (Ast.cons x0 x1).untrack = (Ast.cons y0 y1).untrack := by
  show Ast.cons (Ast.untrack x0) (Ast.untrack x1) = Ast.cons (Ast.untrack y0) (Ast.untrack y1)
  rw [h0, h1]

theorem some (h0 : Ast.untrack x0 = Ast.untrack y0) :
    (Ast.some x0).untrack = (Ast.some y0).untrack := by
  show Ast.some (Ast.untrack x0) = Ast.some (Ast.untrack y0)
  rw [h0]

theorem ident  :
    (Ast.ident a0).untrack = (Ast.ident a0).untrack := rfl

theorem key  :
    (Ast.key a0).untrack = (Ast.key a0).untrack := rfl

theorem iExpr (h0 : Ast.untrack x0 = Ast.untrack y0) :
    (Ast.iExpr x0).untrack = (Ast.iExpr y0).untrack := by
  show Ast.iExpr (Ast.untrack x0) = Ast.iExpr (Ast.untrack y0)
  rw [h0]

theorem iSpread (h1 : Ast.untrack x1 = Ast.untrack y1) :
    (Ast.iSpread l x1).untrack = (Ast.iSpread l' y1).untrack := by
  show Ast.iSpread none (Ast.untrack x1) = Ast.iSpread none (Ast.untrack y1)
  rw [h1]

theorem eThis  :
    (Ast.eThis l).untrack = (Ast.eThis l').untrack := rfl

theorem eId  :
    (Ast.eId a0).untrack = (Ast.eId a0).untrack := rfl

theorem eArr (h1 : Ast.untrack x1 = Ast.untrack y1) :
    (Ast.eArr l x1).untrack = (Ast.eArr l' y1).untrack := by
  show Ast.eArr none (Ast.untrack x1) = Ast.eArr none (Ast.untrack y1)
  rw [h1]

theorem eObj (h1 : Ast.untrack x1 = Ast.untrack y1) :
    (Ast.eObj l x1).untrack = (Ast.eObj l' y1).untrack := by
  show Ast.eObj none (Ast.untrack x1) = Ast.eObj none (Ast.untrack y1)
  rw [h1]

theorem eFun (h0 : Ast.untrack x0 = Ast.untrack y0) :
    (Ast.eFun x0).untrack = (Ast.eFun y0).untrack := by
  show Ast.eFun (Ast.untrack x0) = Ast.eFun (Ast.untrack y0)
  rw [h0]

theorem eSeq (h1 : Ast.untrack x1 = Ast.untrack y1) :
    (Ast.eSeq l x1).untrack = (Ast.eSeq l' y1).untrack := by
  show Ast.eSeq none (Ast.untrack x1) = Ast.eSeq none (Ast.untrack y1)
  rw [h1]

theorem eUnop (h2 : Ast.untrack x2 = Ast.untrack y2) :
    (Ast.eUnop l a1 x2).untrack = (Ast.eUnop l' a1 y2).untrack := by
  show Ast.eUnop none a1.untrack (Ast.untrack x2) = Ast.eUnop none a1.untrack (Ast.untrack y2)
  rw [h2]

theorem eBinop (h2 : Ast.untrack x2 = Ast.untrack y2) (h3 : Ast.untrack x3 = Ast.untrack y3) :
    (Ast.eBinop l a1 x2 x3).untrack = (Ast.eBinop l' a1 y2 y3).untrack := by
  show Ast.eBinop none a1.untrack (Ast.untrack x2) (Ast.untrack x3) = Ast.eBinop none a1.untrack (Ast.untrack y2) (Ast.untrack y3)
  rw [h2, h3]

theorem eLogop (h2 : Ast.untrack x2 = Ast.untrack y2) (h3 : Ast.untrack x3 = Ast.untrack y3) :
    (Ast.eLogop l a1 x2 x3).untrack = (Ast.eLogop l' a1 y2 y3).untrack := by
  show Ast.eLogop none a1.untrack (Ast.untrack x2) (Ast.untrack x3) = Ast.eLogop none a1.untrack (Ast.untrack y2) (Ast.untrack y3)
  rw [h2, h3]

theorem ePreInc (h1 : Ast.untrack x1 = Ast.untrack y1) :
    (Ast.ePreInc l x1).untrack = (Ast.ePreInc l' y1).untrack := by
  show Ast.ePreInc none (Ast.untrack x1) = Ast.ePreInc none (Ast.untrack y1)
  rw [h1]

theorem ePostInc (h1 : Ast.untrack x1 = Ast.untrack y1) :
    (Ast.ePostInc l x1).untrack = (Ast.ePostInc l' y1).untrack := by
  show Ast.ePostInc none (Ast.untrack x1) = Ast.ePostInc none (Ast.untrack y1)
  rw [h1]

theorem ePreDec (h1 : Ast.untrack x1 = Ast.untrack y1) :
    (Ast.ePreDec l x1).untrack = (Ast.ePreDec l' y1).untrack := by
  show Ast.ePreDec none (Ast.untrack x1) = Ast.ePreDec none (Ast.untrack y1)
  rw [h1]

theorem ePostDec (h1 : Ast.untrack x1 = Ast.untrack y1) :
    (Ast.ePostDec l x1).untrack = (Ast.ePostDec l' y1).untrack := by
  show Ast.ePostDec none (Ast.untrack x1) = Ast.ePostDec none (Ast.untrack y1)
  rw [h1]

theorem eAssign (h1 : Ast.untrack x1 = Ast.untrack y1) (h2 : Ast.untrack x2 = Ast.untrack y2) :
    (Ast.eAssign l x1 x2).untrack = (Ast.eAssign l' y1 y2).untrack := by
  show Ast.eAssign none (Ast.untrack x1) (Ast.untrack x2) = Ast.eAssign none (Ast.untrack y1) (Ast.untrack y2)
  rw [h1, h2]

theorem eBinAssign (h2 : Ast.untrack x2 = Ast.untrack y2) (h3 : Ast.untrack x3 = Ast.untrack y3) :
    (Ast.eBinAssign l a1 x2 x3).untrack = (Ast.eBinAssign l' a1 y2 y3).untrack := by
  show Ast.eBinAssign none a1.untrack (Ast.untrack x2) (Ast.untrack x3) = Ast.eBinAssign none a1.untrack (Ast.untrack y2) (Ast.untrack y3)
  rw [h2, h3]

theorem eCond (h1 : Ast.untrack x1 = Ast.untrack y1) (h2 : Ast.untrack x2 = Ast.untrack y2) (h3 : Ast.untrack x3 = Ast.untrack y3) :
    (Ast.eCond l x1 x2 x3).untrack = (Ast.eCond l' y1 y2 y3).untrack := by
  show Ast.eCond none (Ast.untrack x1) (Ast.untrack x2) (Ast.untrack x3) = Ast.eCond none (Ast.untrack y1) (Ast.untrack y2) (Ast.untrack y3)
  rw [h1, h2, h3]

theorem eCall (h1 : Ast.untrack x1 = Ast.untrack y1) (h2 : Ast.untrack x2 = Ast.untrack y2) :
    (Ast.eCall l x1 x2).untrack = (Ast.eCall l' y1 y2).untrack := by
  show Ast.eCall none (Ast.untrack x1) (Ast.untrack x2) = Ast.eCall none (Ast.untrack y1) (Ast.untrack y2)
  rw [h1, h2]

theorem eNew (h1 : Ast.untrack x1 = Ast.untrack y1) (h2 : Ast.untrack x2 = Ast.untrack y2) :
    (Ast.eNew l x1 x2).untrack = (Ast.eNew l' y1 y2).untrack := by
  show Ast.eNew none (Ast.untrack x1) (Ast.untrack x2) = Ast.eNew none (Ast.untrack y1) (Ast.untrack y2)
  rw [h1, h2]

theorem eDot (h1 : Ast.untrack x1 = Ast.untrack y1) :
    (Ast.eDot l x1 a2).untrack = (Ast.eDot l' y1 a2).untrack := by
  show Ast.eDot none (Ast.untrack x1) a2.untrack = Ast.eDot none (Ast.untrack y1) a2.untrack
  rw [h1]

theorem eBrack (h1 : Ast.untrack x1 = Ast.untrack y1) (h2 : Ast.untrack x2 = Ast.untrack y2) :
    (Ast.eBrack l x1 x2).untrack = (Ast.eBrack l' y1 y2).untrack := by
  show Ast.eBrack none (Ast.untrack x1) (Ast.untrack x2) = Ast.eBrack none (Ast.untrack y1) (Ast.untrack y2)
  rw [h1, h2]

theorem eNewTarget  :
    (Ast.eNewTarget l).untrack = (Ast.eNewTarget l').untrack := rfl

theorem eTrue  :
    (Ast.eTrue l).untrack = (Ast.eTrue l').untrack := rfl

theorem eFalse  :
    (Ast.eFalse l).untrack = (Ast.eFalse l').untrack := rfl

theorem eNull  :
    (Ast.eNull l).untrack = (Ast.eNull l').untrack := rfl

theorem eNumber  :
    (Ast.eNumber l a1).untrack = (Ast.eNumber l' a1).untrack := rfl

theorem eRegExp  :
    (Ast.eRegExp l a1).untrack = (Ast.eRegExp l' a1).untrack := rfl

theorem eString  :
    (Ast.eString l a1).untrack = (Ast.eString l' a1).untrack := rfl

theorem tId  :
    (Ast.tId a0).untrack = (Ast.tId a0).untrack := rfl

theorem tDot (h1 : Ast.untrack x1 = Ast.untrack y1) :
    (Ast.tDot l x1 a2).untrack = (Ast.tDot l' y1 a2).untrack := by
  show Ast.tDot none (Ast.untrack x1) a2.untrack = Ast.tDot none (Ast.untrack y1) a2.untrack
  rw [h1]

theorem tBrack (h1 : Ast.untrack x1 = Ast.untrack y1) (h2 : Ast.untrack x2 = Ast.untrack y2) :
    (Ast.tBrack l x1 x2).untrack = (Ast.tBrack l' y1 y2).untrack := by
  show Ast.tBrack none (Ast.untrack x1) (Ast.untrack x2) = Ast.tBrack none (Ast.untrack y1) (Ast.untrack y2)
  rw [h1, h2]

theorem pSimple (h0 : Ast.untrack x0 = Ast.untrack y0) :
    (Ast.pSimple x0).untrack = (Ast.pSimple y0).untrack := by
  show Ast.pSimple (Ast.untrack x0) = Ast.pSimple (Ast.untrack y0)
  rw [h0]

theorem restPatt (h1 : Ast.untrack x1 = Ast.untrack y1) :
    (Ast.restPatt l x1).untrack = (Ast.restPatt l' y1).untrack := by
  show Ast.restPatt none (Ast.untrack x1) = Ast.restPatt none (Ast.untrack y1)
  rw [h1]

theorem prRegular (h2 : Ast.untrack x2 = Ast.untrack y2) :
    (Ast.prRegular l a1 x2).untrack = (Ast.prRegular l' a1 y2).untrack := by
  show Ast.prRegular none a1.untrack (Ast.untrack x2) = Ast.prRegular none a1.untrack (Ast.untrack y2)
  rw [h2]

theorem prMethod (h0 : Ast.untrack x0 = Ast.untrack y0) :
    (Ast.prMethod x0).untrack = (Ast.prMethod y0).untrack := by
  show Ast.prMethod (Ast.untrack x0) = Ast.prMethod (Ast.untrack y0)
  rw [h0]

theorem prShorthand  :
    (Ast.prShorthand a0).untrack = (Ast.prShorthand a0).untrack := rfl

theorem vInit (h0 : Ast.untrack x0 = Ast.untrack y0) :
    (Ast.vInit x0).untrack = (Ast.vInit y0).untrack := by
  show Ast.vInit (Ast.untrack x0) = Ast.vInit (Ast.untrack y0)
  rw [h0]

theorem vGet (h1 : Ast.untrack x1 = Ast.untrack y1) :
    (Ast.vGet l x1).untrack = (Ast.vGet l' y1).untrack := by
  show Ast.vGet none (Ast.untrack x1) = Ast.vGet none (Ast.untrack y1)
  rw [h1]

theorem vSet (h1 : Ast.untrack x1 = Ast.untrack y1) (h2 : Ast.untrack x2 = Ast.untrack y2) :
    (Ast.vSet l x1 x2).untrack = (Ast.vSet l' y1 y2).untrack := by
  show Ast.vSet none (Ast.untrack x1) (Ast.untrack x2) = Ast.vSet none (Ast.untrack y1) (Ast.untrack y2)
  rw [h1, h2]

theorem func (h1 : Ast.untrack x1 = Ast.untrack y1) (h2 : Ast.untrack x2 = Ast.untrack y2) (h3 : Ast.untrack x3 = Ast.untrack y3) :
    (Ast.func l x1 x2 x3 a4).untrack = (Ast.func l' y1 y2 y3 a4).untrack := by
  show Ast.func none (Ast.untrack x1) (Ast.untrack x2) (Ast.untrack x3) a4 = Ast.func none (Ast.untrack y1) (Ast.untrack y2) (Ast.untrack y3) a4
  rw [h1, h2, h3]

theorem params (h1 : Ast.untrack x1 = Ast.untrack y1) (h2 : Ast.untrack x2 = Ast.untrack y2) :
    (Ast.params l x1 x2).untrack = (Ast.params l' y1 y2).untrack := by
  show Ast.params none (Ast.untrack x1) (Ast.untrack x2) = Ast.params none (Ast.untrack y1) (Ast.untrack y2)
  rw [h1, h2]

theorem body (h1 : a1.map Dir.untrack = b1.map Dir.untrack) (h2 : Ast.untrack x2 = Ast.untrack y2) :
    (Ast.body l a1 x2).untrack = (Ast.body l' b1 y2).untrack := by
  show Ast.body none (a1.map Dir.untrack) (Ast.untrack x2) = Ast.body none (b1.map Dir.untrack) (Ast.untrack y2)
  rw [h1, h2]

theorem siDecl (h0 : Ast.untrack x0 = Ast.untrack y0) :
    (Ast.siDecl x0).untrack = (Ast.siDecl y0).untrack := by
  show Ast.siDecl (Ast.untrack x0) = Ast.siDecl (Ast.untrack y0)
  rw [h0]

theorem siStmt (h0 : Ast.untrack x0 = Ast.untrack y0) :
    (Ast.siStmt x0).untrack = (Ast.siStmt y0).untrack := by
  show Ast.siStmt (Ast.untrack x0) = Ast.siStmt (Ast.untrack y0)
  rw [h0]

theorem miItem (h0 : Ast.untrack x0 = Ast.untrack y0) :
    (Ast.miItem x0).untrack = (Ast.miItem y0).untrack := by
  show Ast.miItem (Ast.untrack x0) = Ast.miItem (Ast.untrack y0)
  rw [h0]

theorem dFun (h0 : Ast.untrack x0 = Ast.untrack y0) :
    (Ast.dFun x0).untrack = (Ast.dFun y0).untrack := by
  show Ast.dFun (Ast.untrack x0) = Ast.dFun (Ast.untrack y0)
  rw [h0]

theorem dLet (h1 : Ast.untrack x1 = Ast.untrack y1) :
    (Ast.dLet l x1 m).untrack = (Ast.dLet l' y1 m').untrack := by
  show Ast.dLet none (Ast.untrack x1) (.explicit none) = Ast.dLet none (Ast.untrack y1) (.explicit none)
  rw [h1]

theorem dConst (h1 : Ast.untrack x1 = Ast.untrack y1) :
    (Ast.dConst l x1 m).untrack = (Ast.dConst l' y1 m').untrack := by
  show Ast.dConst none (Ast.untrack x1) (.explicit none) = Ast.dConst none (Ast.untrack y1) (.explicit none)
  rw [h1]

theorem dtSimple (h2 : Ast.untrack x2 = Ast.untrack y2) :
    (Ast.dtSimple l a1 x2).untrack = (Ast.dtSimple l' a1 y2).untrack := by
  show Ast.dtSimple none a1.untrack (Ast.untrack x2) = Ast.dtSimple none a1.untrack (Ast.untrack y2)
  rw [h2]

theorem constDtor (h1 : Ast.untrack x1 = Ast.untrack y1) (h2 : Ast.untrack x2 = Ast.untrack y2) :
    (Ast.constDtor l x1 x2).untrack = (Ast.constDtor l' y1 y2).untrack := by
  show Ast.constDtor none (Ast.untrack x1) (Ast.untrack x2) = Ast.constDtor none (Ast.untrack y1) (Ast.untrack y2)
  rw [h1, h2]

theorem block (h1 : Ast.untrack x1 = Ast.untrack y1) :
    (Ast.block l x1).untrack = (Ast.block l' y1).untrack := by
  show Ast.block none (Ast.untrack x1) = Ast.block none (Ast.untrack y1)
  rw [h1]

theorem sEmpty  :
    (Ast.sEmpty l).untrack = (Ast.sEmpty l').untrack := rfl

theorem sBlock (h0 : Ast.untrack x0 = Ast.untrack y0) :
    (Ast.sBlock x0).untrack = (Ast.sBlock y0).untrack := by
  show Ast.sBlock (Ast.untrack x0) = Ast.sBlock (Ast.untrack y0)
  rw [h0]

theorem sVar (h1 : Ast.untrack x1 = Ast.untrack y1) :
    (Ast.sVar l x1 m).untrack = (Ast.sVar l' y1 m').untrack := by
  show Ast.sVar none (Ast.untrack x1) (.explicit none) = Ast.sVar none (Ast.untrack y1) (.explicit none)
  rw [h1]

theorem sExpr (h1 : Ast.untrack x1 = Ast.untrack y1) :
    (Ast.sExpr l x1 m).untrack = (Ast.sExpr l' y1 m').untrack := by
  show Ast.sExpr none (Ast.untrack x1) (.explicit none) = Ast.sExpr none (Ast.untrack y1) (.explicit none)
  rw [h1]

theorem sIf (h1 : Ast.untrack x1 = Ast.untrack y1) (h2 : Ast.untrack x2 = Ast.untrack y2) (h3 : Ast.untrack x3 = Ast.untrack y3) :
    (Ast.sIf l x1 x2 x3).untrack = (Ast.sIf l' y1 y2 y3).untrack := by
  show Ast.sIf none (Ast.untrack x1) (Ast.untrack x2) (Ast.untrack x3) = Ast.sIf none (Ast.untrack y1) (Ast.untrack y2) (Ast.untrack y3)
  rw [h1, h2, h3]

theorem sLabel (h2 : Ast.untrack x2 = Ast.untrack y2) :
    (Ast.sLabel l a1 x2).untrack = (Ast.sLabel l' a1 y2).untrack := by
  show Ast.sLabel none a1.untrack (Ast.untrack x2) = Ast.sLabel none a1.untrack (Ast.untrack y2)
  rw [h2]

theorem sBreak  :
    (Ast.sBreak l a1 m).untrack = (Ast.sBreak l' a1 m').untrack := rfl

theorem sCont  :
    (Ast.sCont l a1 m).untrack = (Ast.sCont l' a1 m').untrack := rfl

theorem sWith (h1 : Ast.untrack x1 = Ast.untrack y1) (h2 : Ast.untrack x2 = Ast.untrack y2) :
    (Ast.sWith l x1 x2).untrack = (Ast.sWith l' y1 y2).untrack := by
  show Ast.sWith none (Ast.untrack x1) (Ast.untrack x2) = Ast.sWith none (Ast.untrack y1) (Ast.untrack y2)
  rw [h1, h2]

theorem sSwitch (h1 : Ast.untrack x1 = Ast.untrack y1) (h2 : Ast.untrack x2 = Ast.untrack y2) :
    (Ast.sSwitch l x1 x2).untrack = (Ast.sSwitch l' y1 y2).untrack := by
  show Ast.sSwitch none (Ast.untrack x1) (Ast.untrack x2) = Ast.sSwitch none (Ast.untrack y1) (Ast.untrack y2)
  rw [h1, h2]

theorem sReturn (h1 : Ast.untrack x1 = Ast.untrack y1) :
    (Ast.sReturn l x1 m).untrack = (Ast.sReturn l' y1 m').untrack := by
  show Ast.sReturn none (Ast.untrack x1) (.explicit none) = Ast.sReturn none (Ast.untrack y1) (.explicit none)
  rw [h1]

theorem sThrow (h1 : Ast.untrack x1 = Ast.untrack y1) :
    (Ast.sThrow l x1 m).untrack = (Ast.sThrow l' y1 m').untrack := by
  show Ast.sThrow none (Ast.untrack x1) (.explicit none) = Ast.sThrow none (Ast.untrack y1) (.explicit none)
  rw [h1]

theorem sTry (h1 : Ast.untrack x1 = Ast.untrack y1) (h2 : Ast.untrack x2 = Ast.untrack y2) (h3 : Ast.untrack x3 = Ast.untrack y3) :
    (Ast.sTry l x1 x2 x3).untrack = (Ast.sTry l' y1 y2 y3).untrack := by
  show Ast.sTry none (Ast.untrack x1) (Ast.untrack x2) (Ast.untrack x3) = Ast.sTry none (Ast.untrack y1) (Ast.untrack y2) (Ast.untrack y3)
  rw [h1, h2, h3]

theorem sWhile (h1 : Ast.untrack x1 = Ast.untrack y1) (h2 : Ast.untrack x2 = Ast.untrack y2) :
    (Ast.sWhile l x1 x2).untrack = (Ast.sWhile l' y1 y2).untrack := by
  show Ast.sWhile none (Ast.untrack x1) (Ast.untrack x2) = Ast.sWhile none (Ast.untrack y1) (Ast.untrack y2)
  rw [h1, h2]

theorem sDoWhile (h1 : Ast.untrack x1 = Ast.untrack y1) (h2 : Ast.untrack x2 = Ast.untrack y2) :
    (Ast.sDoWhile l x1 x2 m).untrack = (Ast.sDoWhile l' y1 y2 m').untrack := by
  show Ast.sDoWhile none (Ast.untrack x1) (Ast.untrack x2) (.explicit none) = Ast.sDoWhile none (Ast.untrack y1) (Ast.untrack y2) (.explicit none)
  rw [h1, h2]

theorem sFor (h1 : Ast.untrack x1 = Ast.untrack y1) (h2 : Ast.untrack x2 = Ast.untrack y2) (h3 : Ast.untrack x3 = Ast.untrack y3) (h4 : Ast.untrack x4 = Ast.untrack y4) :
    (Ast.sFor l x1 x2 x3 x4).untrack = (Ast.sFor l' y1 y2 y3 y4).untrack := by
  show Ast.sFor none (Ast.untrack x1) (Ast.untrack x2) (Ast.untrack x3) (Ast.untrack x4) = Ast.sFor none (Ast.untrack y1) (Ast.untrack y2) (Ast.untrack y3) (Ast.untrack y4)
  rw [h1, h2, h3, h4]

theorem sForIn (h1 : Ast.untrack x1 = Ast.untrack y1) (h2 : Ast.untrack x2 = Ast.untrack y2) (h3 : Ast.untrack x3 = Ast.untrack y3) :
    (Ast.sForIn l x1 x2 x3).untrack = (Ast.sForIn l' y1 y2 y3).untrack := by
  show Ast.sForIn none (Ast.untrack x1) (Ast.untrack x2) (Ast.untrack x3) = Ast.sForIn none (Ast.untrack y1) (Ast.untrack y2) (Ast.untrack y3)
  rw [h1, h2, h3]

theorem sForOf (h1 : Ast.untrack x1 = Ast.untrack y1) (h2 : Ast.untrack x2 = Ast.untrack y2) (h3 : Ast.untrack x3 = Ast.untrack y3) :
    (Ast.sForOf l x1 x2 x3).untrack = (Ast.sForOf l' y1 y2 y3).untrack := by
  show Ast.sForOf none (Ast.untrack x1) (Ast.untrack x2) (Ast.untrack x3) = Ast.sForOf none (Ast.untrack y1) (Ast.untrack y2) (Ast.untrack y3)
  rw [h1, h2, h3]

theorem sDebugger  :
    (Ast.sDebugger l m).untrack = (Ast.sDebugger l' m').untrack := rfl

theorem fhVar (h1 : Ast.untrack x1 = Ast.untrack y1) :
    (Ast.fhVar l x1).untrack = (Ast.fhVar l' y1).untrack := by
  show Ast.fhVar none (Ast.untrack x1) = Ast.fhVar none (Ast.untrack y1)
  rw [h1]

theorem fhLet (h1 : Ast.untrack x1 = Ast.untrack y1) :
    (Ast.fhLet l x1).untrack = (Ast.fhLet l' y1).untrack := by
  show Ast.fhLet none (Ast.untrack x1) = Ast.fhLet none (Ast.untrack y1)
  rw [h1]

theorem fhConst (h1 : Ast.untrack x1 = Ast.untrack y1) :
    (Ast.fhConst l x1).untrack = (Ast.fhConst l' y1).untrack := by
  show Ast.fhConst none (Ast.untrack x1) = Ast.fhConst none (Ast.untrack y1)
  rw [h1]

theorem fhExpr (h1 : Ast.untrack x1 = Ast.untrack y1) :
    (Ast.fhExpr l x1).untrack = (Ast.fhExpr l' y1).untrack := by
  show Ast.fhExpr none (Ast.untrack x1) = Ast.fhExpr none (Ast.untrack y1)
  rw [h1]

theorem fiVarInit (h2 : Ast.untrack x2 = Ast.untrack y2) :
    (Ast.fiVarInit l a1 x2).untrack = (Ast.fiVarInit l' a1 y2).untrack := by
  show Ast.fiVarInit none a1.untrack (Ast.untrack x2) = Ast.fiVarInit none a1.untrack (Ast.untrack y2)
  rw [h2]

theorem fiVar (h1 : Ast.untrack x1 = Ast.untrack y1) :
    (Ast.fiVar l x1).untrack = (Ast.fiVar l' y1).untrack := by
  show Ast.fiVar none (Ast.untrack x1) = Ast.fiVar none (Ast.untrack y1)
  rw [h1]

theorem fiLet (h1 : Ast.untrack x1 = Ast.untrack y1) :
    (Ast.fiLet l x1).untrack = (Ast.fiLet l' y1).untrack := by
  show Ast.fiLet none (Ast.untrack x1) = Ast.fiLet none (Ast.untrack y1)
  rw [h1]

theorem fiConst (h1 : Ast.untrack x1 = Ast.untrack y1) :
    (Ast.fiConst l x1).untrack = (Ast.fiConst l' y1).untrack := by
  show Ast.fiConst none (Ast.untrack x1) = Ast.fiConst none (Ast.untrack y1)
  rw [h1]

theorem fiPatt (h0 : Ast.untrack x0 = Ast.untrack y0) :
    (Ast.fiPatt x0).untrack = (Ast.fiPatt y0).untrack := by
  show Ast.fiPatt (Ast.untrack x0) = Ast.fiPatt (Ast.untrack y0)
  rw [h0]

theorem foVar (h1 : Ast.untrack x1 = Ast.untrack y1) :
    (Ast.foVar l x1).untrack = (Ast.foVar l' y1).untrack := by
  show Ast.foVar none (Ast.untrack x1) = Ast.foVar none (Ast.untrack y1)
  rw [h1]

theorem foLet (h1 : Ast.untrack x1 = Ast.untrack y1) :
    (Ast.foLet l x1).untrack = (Ast.foLet l' y1).untrack := by
  show Ast.foLet none (Ast.untrack x1) = Ast.foLet none (Ast.untrack y1)
  rw [h1]

theorem foConst (h1 : Ast.untrack x1 = Ast.untrack y1) :
    (Ast.foConst l x1).untrack = (Ast.foConst l' y1).untrack := by
  show Ast.foConst none (Ast.untrack x1) = Ast.foConst none (Ast.untrack y1)
  rw [h1]

theorem foPatt (h0 : Ast.untrack x0 = Ast.untrack y0) :
    (Ast.foPatt x0).untrack = (Ast.foPatt y0).untrack := by
  show Ast.foPatt (Ast.untrack x0) = Ast.foPatt (Ast.untrack y0)
  rw [h0]

theorem catchClause (h1 : Ast.untrack x1 = Ast.untrack y1) (h2 : Ast.untrack x2 = Ast.untrack y2) :
    (Ast.catchClause l x1 x2).untrack = (Ast.catchClause l' y1 y2).untrack := by
  show Ast.catchClause none (Ast.untrack x1) (Ast.untrack x2) = Ast.catchClause none (Ast.untrack y1) (Ast.untrack y2)
  rw [h1, h2]

theorem caseClause (h1 : Ast.untrack x1 = Ast.untrack y1) (h2 : Ast.untrack x2 = Ast.untrack y2) :
    (Ast.caseClause l x1 x2).untrack = (Ast.caseClause l' y1 y2).untrack := by
  show Ast.caseClause none (Ast.untrack x1) (Ast.untrack x2) = Ast.caseClause none (Ast.untrack y1) (Ast.untrack y2)
  rw [h1, h2]

theorem ofList : {c : Cat} → {xs ys : List (Ast c)} → xs.map Ast.untrack = ys.map Ast.untrack →
    (Ast.ofList xs).untrack = (Ast.ofList ys).untrack
  | _, [], [], _ => rfl
  | _, x :: xs, y :: ys, h => by
    simp only [List.map_cons, List.cons.injEq] at h
    exact cons h.1 (ofList h.2)
  | _, [], _ :: _, h => by cases h
  | _, _ :: _, [], h => by cases h

end Ut

end Esprit
