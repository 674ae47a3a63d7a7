import Verif.Spec.Layout

/-! Properties of moving trees to the origin. -/

namespace Esprit

@[simp] theorem Ast.blur_nil {c : Cat}  :
    Ast.blur (Ast.nil : Ast (.list c)) = Ast.nil := rfl
@[simp] theorem Ast.blur_cons {c : Cat} (h : Ast c) (t : Ast (.list c)) :
    Ast.blur (Ast.cons h t : Ast (.list c)) = Ast.cons (Ast.blur h) (Ast.blur t) := rfl
@[simp] theorem Ast.blur_none {c : Cat}  :
    Ast.blur (Ast.none : Ast (.opt c)) = Ast.none := rfl
@[simp] theorem Ast.blur_some {c : Cat} (x : Ast c) :
    Ast.blur (Ast.some x : Ast (.opt c)) = Ast.some (Ast.blur x) := rfl
@[simp] theorem Ast.blur_ident (i : Id) :
    Ast.blur (Ast.ident i) = Ast.ident i.blur := rfl
@[simp] theorem Ast.blur_key (k : PropKey) :
    Ast.blur (Ast.key k) = Ast.key k.blur := rfl
@[simp] theorem Ast.blur_iExpr (e : Ast .expr) :
    Ast.blur (Ast.iExpr e) = Ast.iExpr (Ast.blur e) := rfl
@[simp] theorem Ast.blur_iSpread (l : Loc) (e : Ast .expr) :
    Ast.blur (Ast.iSpread l e) = Ast.iSpread (blurLoc l) (Ast.blur e) := rfl
@[simp] theorem Ast.blur_eThis (l : Loc) :
    Ast.blur (Ast.eThis l) = Ast.eThis (blurLoc l) := rfl
@[simp] theorem Ast.blur_eId (i : Id) :
    Ast.blur (Ast.eId i) = Ast.eId i.blur := rfl
@[simp] theorem Ast.blur_eArr (l : Loc) (es : Ast (.list (.opt .item))) :
    Ast.blur (Ast.eArr l es) = Ast.eArr (blurLoc l) (Ast.blur es) := rfl
@[simp] theorem Ast.blur_eObj (l : Loc) (ps : Ast (.list .prop)) :
    Ast.blur (Ast.eObj l ps) = Ast.eObj (blurLoc l) (Ast.blur ps) := rfl
@[simp] theorem Ast.blur_eFun (f : Ast (.func (.opt .id))) :
    Ast.blur (Ast.eFun f) = Ast.eFun (Ast.blur f) := rfl
@[simp] theorem Ast.blur_eSeq (l : Loc) (es : Ast (.list .expr)) :
    Ast.blur (Ast.eSeq l es) = Ast.eSeq (blurLoc l) (Ast.blur es) := rfl
@[simp] theorem Ast.blur_eUnop (l : Loc) (op : Op UnopTag) (e : Ast .expr) :
    Ast.blur (Ast.eUnop l op e) = Ast.eUnop (blurLoc l) op.blur (Ast.blur e) := rfl
@[simp] theorem Ast.blur_eBinop (l : Loc) (op : Op BinopTag) (a : Ast .expr) (b : Ast .expr) :
    Ast.blur (Ast.eBinop l op a b) = Ast.eBinop (blurLoc l) op.blur (Ast.blur a) (Ast.blur b) := rfl
@[simp] theorem Ast.blur_eLogop (l : Loc) (op : Op LogopTag) (a : Ast .expr) (b : Ast .expr) :
    Ast.blur (Ast.eLogop l op a b) = Ast.eLogop (blurLoc l) op.blur (Ast.blur a) (Ast.blur b) := rfl
@[simp] theorem Ast.blur_ePreInc (l : Loc) (t : Ast .target) :
    Ast.blur (Ast.ePreInc l t) = Ast.ePreInc (blurLoc l) (Ast.blur t) := rfl
@[simp] theorem Ast.blur_ePostInc (l : Loc) (t : Ast .target) :
    Ast.blur (Ast.ePostInc l t) = Ast.ePostInc (blurLoc l) (Ast.blur t) := rfl
@[simp] theorem Ast.blur_ePreDec (l : Loc) (t : Ast .target) :
    Ast.blur (Ast.ePreDec l t) = Ast.ePreDec (blurLoc l) (Ast.blur t) := rfl
@[simp] theorem Ast.blur_ePostDec (l : Loc) (t : Ast .target) :
    Ast.blur (Ast.ePostDec l t) = Ast.ePostDec (blurLoc l) (Ast.blur t) := rfl
@[simp] theorem Ast.blur_eAssign (l : Loc) (p : Ast (.patt .target)) (e : Ast .expr) :
    Ast.blur (Ast.eAssign l p e) = Ast.eAssign (blurLoc l) (Ast.blur p) (Ast.blur e) := rfl
@[simp] theorem Ast.blur_eBinAssign (l : Loc) (op : Op AssopTag) (t : Ast .target) (e : Ast .expr) :
    Ast.blur (Ast.eBinAssign l op t e) = Ast.eBinAssign (blurLoc l) op.blur (Ast.blur t) (Ast.blur e) := rfl
@[simp] theorem Ast.blur_eCond (l : Loc) (test : Ast .expr) (thn : Ast .expr) (alt : Ast .expr) :
    Ast.blur (Ast.eCond l test thn alt) = Ast.eCond (blurLoc l) (Ast.blur test) (Ast.blur thn) (Ast.blur alt) := rfl
@[simp] theorem Ast.blur_eCall (l : Loc) (callee : Ast .expr) (args : Ast (.list .item)) :
    Ast.blur (Ast.eCall l callee args) = Ast.eCall (blurLoc l) (Ast.blur callee) (Ast.blur args) := rfl
@[simp] theorem Ast.blur_eNew (l : Loc) (callee : Ast .expr) (args : Ast (.opt (.list .item))) :
    Ast.blur (Ast.eNew l callee args) = Ast.eNew (blurLoc l) (Ast.blur callee) (Ast.blur args) := rfl
@[simp] theorem Ast.blur_eDot (l : Loc) (e : Ast .expr) (k : DotKey) :
    Ast.blur (Ast.eDot l e k) = Ast.eDot (blurLoc l) (Ast.blur e) k.blur := rfl
@[simp] theorem Ast.blur_eBrack (l : Loc) (e : Ast .expr) (prop : Ast .expr) :
    Ast.blur (Ast.eBrack l e prop) = Ast.eBrack (blurLoc l) (Ast.blur e) (Ast.blur prop) := rfl
@[simp] theorem Ast.blur_eNewTarget (l : Loc) :
    Ast.blur (Ast.eNewTarget l) = Ast.eNewTarget (blurLoc l) := rfl
@[simp] theorem Ast.blur_eTrue (l : Loc) :
    Ast.blur (Ast.eTrue l) = Ast.eTrue (blurLoc l) := rfl
@[simp] theorem Ast.blur_eFalse (l : Loc) :
    Ast.blur (Ast.eFalse l) = Ast.eFalse (blurLoc l) := rfl
@[simp] theorem Ast.blur_eNull (l : Loc) :
    Ast.blur (Ast.eNull l) = Ast.eNull (blurLoc l) := rfl
@[simp] theorem Ast.blur_eNumber (l : Loc) (n : NumberLiteral) :
    Ast.blur (Ast.eNumber l n) = Ast.eNumber (blurLoc l) n := rfl
@[simp] theorem Ast.blur_eRegExp (l : Loc) (r : RegExpLiteral) :
    Ast.blur (Ast.eRegExp l r) = Ast.eRegExp (blurLoc l) r := rfl
@[simp] theorem Ast.blur_eString (l : Loc) (s : StringLiteral) :
    Ast.blur (Ast.eString l s) = Ast.eString (blurLoc l) s := rfl
@[simp] theorem Ast.blur_tId (i : Id) :
    Ast.blur (Ast.tId i) = Ast.tId i.blur := rfl
@[simp] theorem Ast.blur_tDot (l : Loc) (e : Ast .expr) (k : DotKey) :
    Ast.blur (Ast.tDot l e k) = Ast.tDot (blurLoc l) (Ast.blur e) k.blur := rfl
@[simp] theorem Ast.blur_tBrack (l : Loc) (e : Ast .expr) (prop : Ast .expr) :
    Ast.blur (Ast.tBrack l e prop) = Ast.tBrack (blurLoc l) (Ast.blur e) (Ast.blur prop) := rfl
@[simp] theorem Ast.blur_pSimple {c : Cat} (t : Ast c) :
    Ast.blur (Ast.pSimple t : Ast (.patt c)) = Ast.pSimple (Ast.blur t) := rfl
@[simp] theorem Ast.blur_pCompound {c : Cat} (p : Ast (.comp c)) :
    Ast.blur (Ast.pCompound p : Ast (.patt c)) = Ast.pCompound (Ast.blur p) := rfl
@[simp] theorem Ast.blur_cArr {c : Cat} (l : Loc) (es : Ast (.list (.opt (.patt c)))) (r : Ast (.opt (.rest c))) :
    Ast.blur (Ast.cArr l es r : Ast (.comp c)) = Ast.cArr (blurLoc l) (Ast.blur es) (Ast.blur r) := rfl
@[simp] theorem Ast.blur_cObj {c : Cat} (l : Loc) (ps : Ast (.list (.propPatt c))) :
    Ast.blur (Ast.cObj l ps : Ast (.comp c)) = Ast.cObj (blurLoc l) (Ast.blur ps) := rfl
@[simp] theorem Ast.blur_restPatt {c : Cat} (l : Loc) (p : Ast (.patt c)) :
    Ast.blur (Ast.restPatt l p : Ast (.rest c)) = Ast.restPatt (blurLoc l) (Ast.blur p) := rfl
@[simp] theorem Ast.blur_ppRegular {c : Cat} (l : Loc) (k : PropKey) (p : Ast (.patt c)) :
    Ast.blur (Ast.ppRegular l k p : Ast (.propPatt c)) = Ast.ppRegular (blurLoc l) k.blur (Ast.blur p) := rfl
@[simp] theorem Ast.blur_ppShorthand {c : Cat} (i : Id) :
    Ast.blur (Ast.ppShorthand i : Ast (.propPatt c)) = Ast.ppShorthand i.blur := rfl
@[simp] theorem Ast.blur_prRegular (l : Loc) (k : PropKey) (v : Ast .propVal) :
    Ast.blur (Ast.prRegular l k v) = Ast.prRegular (blurLoc l) k.blur (Ast.blur v) := rfl
@[simp] theorem Ast.blur_prMethod (f : Ast (.func .propKey)) :
    Ast.blur (Ast.prMethod f) = Ast.prMethod (Ast.blur f) := rfl
@[simp] theorem Ast.blur_prShorthand (i : Id) :
    Ast.blur (Ast.prShorthand i) = Ast.prShorthand i.blur := rfl
@[simp] theorem Ast.blur_vInit (e : Ast .expr) :
    Ast.blur (Ast.vInit e) = Ast.vInit (Ast.blur e) := rfl
@[simp] theorem Ast.blur_vGet (l : Loc) (b : Ast (.body .sitem)) :
    Ast.blur (Ast.vGet l b) = Ast.vGet (blurLoc l) (Ast.blur b) := rfl
@[simp] theorem Ast.blur_vSet (l : Loc) (p : Ast (.patt .id)) (b : Ast (.body .sitem)) :
    Ast.blur (Ast.vSet l p b) = Ast.vSet (blurLoc l) (Ast.blur p) (Ast.blur b) := rfl
@[simp] theorem Ast.blur_func {c : Cat} (l : Loc) (id : Ast c) (ps : Ast .params) (b : Ast (.body .sitem)) (gen : Bool) :
    Ast.blur (Ast.func l id ps b gen : Ast (.func c)) = Ast.func (blurLoc l) (Ast.blur id) (Ast.blur ps) (Ast.blur b) gen := rfl
@[simp] theorem Ast.blur_params (l : Loc) (ps : Ast (.list (.patt .id))) (r : Ast (.opt (.rest .id))) :
    Ast.blur (Ast.params l ps r) = Ast.params (blurLoc l) (Ast.blur ps) (Ast.blur r) := rfl
@[simp] theorem Ast.blur_body {c : Cat} (l : Loc) (dirs : List Dir) (items : Ast (.list c)) :
    Ast.blur (Ast.body l dirs items : Ast (.body c)) = Ast.body (blurLoc l) (dirs.map Dir.blur) (Ast.blur items) := rfl
@[simp] theorem Ast.blur_siDecl (d : Ast .decl) :
    Ast.blur (Ast.siDecl d) = Ast.siDecl (Ast.blur d) := rfl
@[simp] theorem Ast.blur_siStmt (s : Ast .stmt) :
    Ast.blur (Ast.siStmt s) = Ast.siStmt (Ast.blur s) := rfl
@[simp] theorem Ast.blur_miImport (i : Ast .«import») :
    Ast.blur (Ast.miImport i) = Ast.miImport (Ast.blur i) := rfl
@[simp] theorem Ast.blur_miExport (e : Ast .«export») :
    Ast.blur (Ast.miExport e) = Ast.miExport (Ast.blur e) := rfl
@[simp] theorem Ast.blur_miItem (i : Ast .sitem) :
    Ast.blur (Ast.miItem i) = Ast.miItem (Ast.blur i) := rfl
@[simp] theorem Ast.blur_importForEffect (l : Loc) (s : StringLiteral) :
    Ast.blur (Ast.importForEffect l s) = Ast.importForEffect (blurLoc l) s := rfl
@[simp] theorem Ast.blur_exportVar (l : Loc) (ds : Ast (.list .dtor)) (semi : Semi) :
    Ast.blur (Ast.exportVar l ds semi) = Ast.exportVar (blurLoc l) (Ast.blur ds) semi.blur := rfl
@[simp] theorem Ast.blur_exportDecl (d : Ast .decl) :
    Ast.blur (Ast.exportDecl d) = Ast.exportDecl (Ast.blur d) := rfl
@[simp] theorem Ast.blur_dFun (f : Ast (.func .id)) :
    Ast.blur (Ast.dFun f) = Ast.dFun (Ast.blur f) := rfl
@[simp] theorem Ast.blur_dLet (l : Loc) (ds : Ast (.list .dtor)) (semi : Semi) :
    Ast.blur (Ast.dLet l ds semi) = Ast.dLet (blurLoc l) (Ast.blur ds) semi.blur := rfl
@[simp] theorem Ast.blur_dConst (l : Loc) (ds : Ast (.list .constDtor)) (semi : Semi) :
    Ast.blur (Ast.dConst l ds semi) = Ast.dConst (blurLoc l) (Ast.blur ds) semi.blur := rfl
@[simp] theorem Ast.blur_dtSimple (l : Loc) (i : Id) (init : Ast (.opt .expr)) :
    Ast.blur (Ast.dtSimple l i init) = Ast.dtSimple (blurLoc l) i.blur (Ast.blur init) := rfl
@[simp] theorem Ast.blur_dtCompound (l : Loc) (p : Ast (.comp .id)) (init : Ast .expr) :
    Ast.blur (Ast.dtCompound l p init) = Ast.dtCompound (blurLoc l) (Ast.blur p) (Ast.blur init) := rfl
@[simp] theorem Ast.blur_constDtor (l : Loc) (p : Ast (.patt .id)) (value : Ast .expr) :
    Ast.blur (Ast.constDtor l p value) = Ast.constDtor (blurLoc l) (Ast.blur p) (Ast.blur value) := rfl
@[simp] theorem Ast.blur_block (l : Loc) (items : Ast (.list .sitem)) :
    Ast.blur (Ast.block l items) = Ast.block (blurLoc l) (Ast.blur items) := rfl
@[simp] theorem Ast.blur_sEmpty (l : Loc) :
    Ast.blur (Ast.sEmpty l) = Ast.sEmpty (blurLoc l) := rfl
@[simp] theorem Ast.blur_sBlock (b : Ast .block) :
    Ast.blur (Ast.sBlock b) = Ast.sBlock (Ast.blur b) := rfl
@[simp] theorem Ast.blur_sVar (l : Loc) (ds : Ast (.list .dtor)) (semi : Semi) :
    Ast.blur (Ast.sVar l ds semi) = Ast.sVar (blurLoc l) (Ast.blur ds) semi.blur := rfl
@[simp] theorem Ast.blur_sExpr (l : Loc) (e : Ast .expr) (semi : Semi) :
    Ast.blur (Ast.sExpr l e semi) = Ast.sExpr (blurLoc l) (Ast.blur e) semi.blur := rfl
@[simp] theorem Ast.blur_sIf (l : Loc) (test : Ast .expr) (thn : Ast .stmt) (alt : Ast (.opt .stmt)) :
    Ast.blur (Ast.sIf l test thn alt) = Ast.sIf (blurLoc l) (Ast.blur test) (Ast.blur thn) (Ast.blur alt) := rfl
@[simp] theorem Ast.blur_sLabel (l : Loc) (i : Id) (s : Ast .stmt) :
    Ast.blur (Ast.sLabel l i s) = Ast.sLabel (blurLoc l) i.blur (Ast.blur s) := rfl
@[simp] theorem Ast.blur_sBreak (l : Loc) (i : Option Id) (semi : Semi) :
    Ast.blur (Ast.sBreak l i semi) = Ast.sBreak (blurLoc l) (i.map Id.blur) semi.blur := rfl
@[simp] theorem Ast.blur_sCont (l : Loc) (i : Option Id) (semi : Semi) :
    Ast.blur (Ast.sCont l i semi) = Ast.sCont (blurLoc l) (i.map Id.blur) semi.blur := rfl
@[simp] theorem Ast.blur_sWith (l : Loc) (obj : Ast .expr) (s : Ast .stmt) :
    Ast.blur (Ast.sWith l obj s) = Ast.sWith (blurLoc l) (Ast.blur obj) (Ast.blur s) := rfl
@[simp] theorem Ast.blur_sSwitch (l : Loc) (disc : Ast .expr) (cases : Ast (.list .case)) :
    Ast.blur (Ast.sSwitch l disc cases) = Ast.sSwitch (blurLoc l) (Ast.blur disc) (Ast.blur cases) := rfl
@[simp] theorem Ast.blur_sReturn (l : Loc) (arg : Ast (.opt .expr)) (semi : Semi) :
    Ast.blur (Ast.sReturn l arg semi) = Ast.sReturn (blurLoc l) (Ast.blur arg) semi.blur := rfl
@[simp] theorem Ast.blur_sThrow (l : Loc) (arg : Ast .expr) (semi : Semi) :
    Ast.blur (Ast.sThrow l arg semi) = Ast.sThrow (blurLoc l) (Ast.blur arg) semi.blur := rfl
@[simp] theorem Ast.blur_sTry (l : Loc) (b : Ast .block) (c : Ast (.opt .«catch»)) (f : Ast (.opt .block)) :
    Ast.blur (Ast.sTry l b c f) = Ast.sTry (blurLoc l) (Ast.blur b) (Ast.blur c) (Ast.blur f) := rfl
@[simp] theorem Ast.blur_sWhile (l : Loc) (test : Ast .expr) (s : Ast .stmt) :
    Ast.blur (Ast.sWhile l test s) = Ast.sWhile (blurLoc l) (Ast.blur test) (Ast.blur s) := rfl
@[simp] theorem Ast.blur_sDoWhile (l : Loc) (s : Ast .stmt) (test : Ast .expr) (semi : Semi) :
    Ast.blur (Ast.sDoWhile l s test semi) = Ast.sDoWhile (blurLoc l) (Ast.blur s) (Ast.blur test) semi.blur := rfl
@[simp] theorem Ast.blur_sFor (l : Loc) (head : Ast (.opt .forHead)) (test : Ast (.opt .expr)) (update : Ast (.opt .expr)) (s : Ast .stmt) :
    Ast.blur (Ast.sFor l head test update s) = Ast.sFor (blurLoc l) (Ast.blur head) (Ast.blur test) (Ast.blur update) (Ast.blur s) := rfl
@[simp] theorem Ast.blur_sForIn (l : Loc) (head : Ast .forInHead) (obj : Ast .expr) (s : Ast .stmt) :
    Ast.blur (Ast.sForIn l head obj s) = Ast.sForIn (blurLoc l) (Ast.blur head) (Ast.blur obj) (Ast.blur s) := rfl
@[simp] theorem Ast.blur_sForOf (l : Loc) (head : Ast .forOfHead) (obj : Ast .expr) (s : Ast .stmt) :
    Ast.blur (Ast.sForOf l head obj s) = Ast.sForOf (blurLoc l) (Ast.blur head) (Ast.blur obj) (Ast.blur s) := rfl
@[simp] theorem Ast.blur_sDebugger (l : Loc) (semi : Semi) :
    Ast.blur (Ast.sDebugger l semi) = Ast.sDebugger (blurLoc l) semi.blur := rfl
@[simp] theorem Ast.blur_fhVar (l : Loc) (ds : Ast (.list .dtor)) :
    Ast.blur (Ast.fhVar l ds) = Ast.fhVar (blurLoc l) (Ast.blur ds) := rfl
@[simp] theorem Ast.blur_fhLet (l : Loc) (ds : Ast (.list .dtor)) :
    Ast.blur (Ast.fhLet l ds) = Ast.fhLet (blurLoc l) (Ast.blur ds) := rfl
@[simp] theorem Ast.blur_fhConst (l : Loc) (ds : Ast (.list .constDtor)) :
    Ast.blur (Ast.fhConst l ds) = Ast.fhConst (blurLoc l) (Ast.blur ds) := rfl
@[simp] theorem Ast.blur_fhExpr (l : Loc) (e : Ast .expr) :
    Ast.blur (Ast.fhExpr l e) = Ast.fhExpr (blurLoc l) (Ast.blur e) := rfl
@[simp] theorem Ast.blur_fiVarInit (l : Loc) (i : Id) (init : Ast .expr) :
    Ast.blur (Ast.fiVarInit l i init) = Ast.fiVarInit (blurLoc l) i.blur (Ast.blur init) := rfl
@[simp] theorem Ast.blur_fiVar (l : Loc) (p : Ast (.patt .id)) :
    Ast.blur (Ast.fiVar l p) = Ast.fiVar (blurLoc l) (Ast.blur p) := rfl
@[simp] theorem Ast.blur_fiLet (l : Loc) (p : Ast (.patt .id)) :
    Ast.blur (Ast.fiLet l p) = Ast.fiLet (blurLoc l) (Ast.blur p) := rfl
@[simp] theorem Ast.blur_fiConst (l : Loc) (p : Ast (.patt .id)) :
    Ast.blur (Ast.fiConst l p) = Ast.fiConst (blurLoc l) (Ast.blur p) := rfl
@[simp] theorem Ast.blur_fiPatt (p : Ast (.patt .target)) :
    Ast.blur (Ast.fiPatt p) = Ast.fiPatt (Ast.blur p) := rfl
@[simp] theorem Ast.blur_foVar (l : Loc) (p : Ast (.patt .id)) :
    Ast.blur (Ast.foVar l p) = Ast.foVar (blurLoc l) (Ast.blur p) := rfl
@[simp] theorem Ast.blur_foLet (l : Loc) (p : Ast (.patt .id)) :
    Ast.blur (Ast.foLet l p) = Ast.foLet (blurLoc l) (Ast.blur p) := rfl
@[simp] theorem Ast.blur_foConst (l : Loc) (p : Ast (.patt .id)) :
    Ast.blur (Ast.foConst l p) = Ast.foConst (blurLoc l) (Ast.blur p) := rfl
@[simp] theorem Ast.blur_foPatt (p : Ast (.patt .target)) :
    Ast.blur (Ast.foPatt p) = Ast.foPatt (Ast.blur p) := rfl
@[simp] theorem Ast.blur_catchClause (l : Loc) (p : Ast (.patt .id)) (b : Ast .block) :
    Ast.blur (Ast.catchClause l p b) = Ast.catchClause (blurLoc l) (Ast.blur p) (Ast.blur b) := rfl
@[simp] theorem Ast.blur_caseClause (l : Loc) (test : Ast (.opt .expr)) (items : Ast (.list .sitem)) :
    Ast.blur (Ast.caseClause l test items) = Ast.caseClause (blurLoc l) (Ast.blur test) (Ast.blur items) := rfl

@[simp] theorem blurLoc_none : blurLoc none = none := rfl
@[simp] theorem blurLoc_some (l : Span) : blurLoc (some l) = some .zero := rfl

@[simp] theorem blurLoc_spanLoc (l r : Loc) :
    blurLoc (spanLoc l r) = spanLoc (blurLoc l) (blurLoc r) := by
  cases l <;> cases r <;> rfl

@[simp] theorem PropKey.blur_id (l : Loc) (s : Str) : (PropKey.id l s).blur = .id (blurLoc l) s := rfl
@[simp] theorem PropKey.blur_string (l : Loc) (s : StringLiteral) :
    (PropKey.string l s).blur = .string (blurLoc l) s := rfl
@[simp] theorem PropKey.blur_number (l : Loc) (s : NumberLiteral) :
    (PropKey.number l s).blur = .number (blurLoc l) s := rfl
@[simp] theorem PropKey.loc_blur (k : PropKey) : blurLoc k.loc = k.blur.loc := by cases k <;> rfl

@[simp] theorem Id.blur_mk (l : Loc) (n : Name) : (Id.mk l n).blur = ⟨blurLoc l, n⟩ := rfl
@[simp] theorem Id.location_blur (i : Id) : blurLoc i.location = i.blur.location := rfl
theorem Id.name_blur (i : Id) : i.blur.name = i.name := rfl
@[simp] theorem DotKey.blur_mk (l : Loc) (n : Str) : (DotKey.mk l n).blur = ⟨blurLoc l, n⟩ := rfl
@[simp] theorem DotKey.location_blur (i : DotKey) : blurLoc i.location = i.blur.location := rfl
@[simp] theorem Op.blur_mk {T : Type} (l : Loc) (n : T) : (Op.mk l n).blur = ⟨blurLoc l, n⟩ := rfl
@[simp] theorem Op.location_blur {T : Type} (i : Op T) : blurLoc i.location = i.blur.location := rfl
theorem Op.tag_blur {T : Type} (i : Op T) : i.blur.tag = i.tag := rfl
@[simp] theorem Semi.blur_inserted : Semi.inserted.blur = .inserted := rfl
@[simp] theorem Semi.blur_explicit (p : Option Posn) :
    (Semi.explicit p).blur = .explicit (p.map fun _ => .origin) := rfl
@[simp] theorem Dir.blur_mk (l : Loc) (s : StringLiteral) (e : Semi) :
    (Dir.mk l s e).blur = ⟨blurLoc l, s, e.blur⟩ := rfl
theorem Dir.pragma_blur (d : Dir) : d.blur.pragma = d.pragma := rfl
@[simp] theorem Token.blur_mk (l : Span) (n : Bool) (v : TokenData) :
    (Token.mk l n v).blur = ⟨.zero, n, v⟩ := rfl

@[simp] theorem Ast.loc_blur {c : Cat} (x : Ast c) : blurLoc x.loc = x.blur.loc := by
  induction x <;> first
    | rfl
    | assumption
    | (rename_i k; cases k <;> rfl)

@[simp] theorem Ast.blur_setLoc {c : Cat} (l : Loc) (x : Ast c) :
    (x.setLoc l).blur = x.blur.setLoc (blurLoc l) := by
  induction x <;> first
    | rfl
    | (rename_i k; cases k <;> rfl)
    | (rename_i ih; exact congrArg _ ih)

@[simp] theorem Ast.blur_ofList {c : Cat} (xs : List (Ast c)) :
    (Ast.ofList xs).blur = .ofList (xs.map Ast.blur) := by
  induction xs with
  | nil => rfl
  | cons x xs ih => simp [Ast.ofList, ih]

@[simp] theorem Ast.toList_blur {c : Cat} (xs : Ast (.list c)) :
    xs.toList.map Ast.blur = xs.blur.toList := by
  have : ∀ {d : Cat} (x : Ast d), (match d, x with
      | .list _, xs => (Ast.toList xs).map Ast.blur = xs.blur.toList
      | _, _ => True) := by
    intro d x
    induction x <;> first
      | trivial
      | rfl
      | (rename_i ih; simpa using ih)
  exact this xs

@[simp] theorem Ast.blur_ofOption {c : Cat} (x : Option (Ast c)) :
    (Ast.ofOption x).blur = .ofOption (x.map Ast.blur) := by
  cases x <;> rfl

end Esprit
