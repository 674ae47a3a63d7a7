import Verif.Proofs.Parser.Ops

/-! Statements and declarations. -/

set_option linter.unusedSectionVars false
set_option linter.unusedVariables false

namespace Esprit

open Lex ReaderSpec Grammar

theorem Tr.ex [Env] {S : Str} {n : Nat} {s s' : PState} {R : List Token → List Token → Prop}
    (h : Tr S n s s' R) : ∃ i r, R i r := by
  obtain ⟨k, e, _, h1⟩ := h.inv.at_
  obtain ⟨i, _, _, _, _, hR⟩ := h.back (s'.la ++ []) ⟨k, e, [], [], k, h1, .nil, rfl⟩
  exact ⟨i, _, hR⟩

namespace P

variable [Env] [LawfulEnv] {S : Str} {env : Scope} {u : Bool} {n m na ni : Nat}
  {s s1 s2 s' : PState} {t : Token} {α β : Type} {r : Rec}

theorem wp.statement (hr : RecOk u S r na ni) (hp : Pre S env s) (hi : s.mu < ni) :
    wp u (P.statement r) s (Post S env .stmt 1 s) := by
  unfold P.statement
  refine (hr.item false s env hp hi).bind fun x s1 h1 => ?_
  cases x with
  | siStmt x => exact h1.imp fun i r h => by cases h; assumption
  | siDecl d =>
    obtain ⟨i, r, h⟩ := h1.ex
    cases h

/-- A statement that ends with a semicolon. -/
theorem wp.endStmt {c : Cat} {nt : NT c} {cons : Semi → Ast c} {nl : Newline} {start : Posn}
    {R : List Token → List Token → Prop}
    (h : Tr S n s s1 R) (hstart : ∀ i k, Rem S s i → R i k → Near S i start)
    (hle : start.offset ≤ s1.off)
    (hR : ∀ i k r semi l, R i k → Term (decide (nl = .optional)) k r semi → Located S i r l →
      Derives (Located S) env nt i r ((cons semi).setLoc l)) :
    wp u (P.endWithAutoSemi start nl cons) s1 (Post S env nt n s) := by
  refine (wp.endWithAutoSemi h hstart hle).mono ?_
  rintro a s' ⟨l, semi, rfl, -, h⟩
  refine h.imp ?_
  rintro i r ⟨k, h1, h2, h3⟩
  exact hR _ _ _ _ _ h1 h2 h3

theorem wp.endStmt' {c : Cat} {nt : NT c} {cons : Semi → Ast c} {nl : Newline}
    {R : List Token → List Token → Prop} (hs : Inv S s) (h : Tr S n s s1 R)
    (hR : ∀ i k r semi l, R i k → Term (decide (nl = .optional)) k r semi → Located S i r l →
      Derives (Located S) env nt i r ((cons semi).setLoc l)) :
    wp u (P.endWithAutoSemi s.lexer.reader.posn nl cons) s1 (Post S env nt n s) := by
  exact wp.endStmt h (fun _ _ hi _ => hi.near hs) h.off hR

theorem wp.exprIn (hr : RecOk u S r na ni) (b : Bool) (hp : Pre S env s) (ha : s.mu < na) :
    wp u (P.allowIn b (P.expression r)) s (Post S (env.withIn b) .expr 1 s) :=
  wp.allowIn (n := 1) (R := fun e i r => Derives (Located S) (env.withIn b) .expr i r e) hp
    fun s1 hmu _ hp1 => wp.expression hr hp1 (by omega)

theorem wp.assignIn (hr : RecOk u S r na ni) (b : Bool) (hp : Pre S env s) (ha : s.mu < na) :
    wp u (P.allowIn b r.assign) s (Post S (env.withIn b) .assign 1 s) :=
  wp.allowIn (n := 1) (R := fun e i r => Derives (Located S) (env.withIn b) .assign i r e) hp
    fun s1 hmu _ hp1 => hr.assign s1 _ hp1 (by omega)

theorem wp.expressionStatement (hr : RecOk u S r na ni) (hp : Pre S env s) (ha : s.mu < na) :
    wp u (P.expressionStatement r) s (fun x s' => Tr S 1 s s' (fun i r => ExprStmtStart i →
      Derives (Located S) env .stmt i r x)) := by
  unfold P.expressionStatement
  refine wp.posn_bind ?_
  refine (wp.exprIn hr true hp ha).bind fun e s1 h1 => ?_
  refine (wp.endWithAutoSemi h1 (fun _ _ hi _ => hi.near hp.inv) h1.off).mono ?_
  rintro a s' ⟨l, semi, rfl, -, h⟩
  refine h.imp ?_
  rintro i r ⟨k, h1, h2, h3⟩ hs
  exact .exprStmt hs h1 h2 h3

theorem wp.block (hr : RecOk u S r na ni) (hp : Pre S env s) (hi : s.mu ≤ ni) :
    wp u (P.block r) s (Post S env .block 1 s) := by
  unfold P.block
  refine wp.spanAst hp.inv ?_
  refine (wp.expect hp.inv rfl).bind ?_
  rintro t1 s1 ⟨hv1, h1⟩
  have h1' := h1.one hv1
  have := h1'.mu
  refine (wp.statementList hr (h1.tr.pre hp) (by omega)).bind fun xs s2 h2 => ?_
  refine (wp.expect h2.inv rfl).bind ?_
  rintro t3 s3 ⟨hv3, h3⟩
  refine (h1'.trans (h2.trans h3.zero)).mono (Nat.le_add_right ..) ?_
  rintro a b ⟨_, rfl, _, hd, rfl⟩ l hl
  exact .block hv1 hd hv3 hl

/-! ### Declarations -/

theorem dtors_of_comma {i m r : List Token} {e : Ast .dtor} {xs : List (Ast .dtor)}
    (h1 : Derives (Located S) env .dtor i m e)
    (h2 : MoreComma (fun e i r => Derives (Located S) env .dtor i r e) xs m r) (hc : NextIsNot r .comma) :
    Derives (Located S) env .dtors i r (.ofList (e :: xs)) := by
  induction h2 generalizing i e with
  | nil => exact .dtorsLast hc h1
  | cons hv he _ ih => exact .dtorsCons h1 hv (ih he hc)

theorem headDtors_of_comma {i m r : List Token} {e : Ast .dtor} {xs : List (Ast .dtor)}
    (h1 : Derives (Located S) env .headDtor i m e)
    (h2 : MoreComma (fun e i r => Derives (Located S) env .dtor i r e) xs m r) (hc : NextIsNot r .comma) :
    Derives (Located S) env .headDtors i r (.ofList (e :: xs)) := by
  cases h2 with
  | nil => exact .headDtorsLast h1
  | cons hv he h => exact .headDtorsCons h1 hv (dtors_of_comma he h hc)

theorem constDtors_of_comma {i m r : List Token} {e : Ast .constDtor} {xs : List (Ast .constDtor)}
    (h1 : Derives (Located S) env .constDtor i m e)
    (h2 : MoreComma (fun e i r => Derives (Located S) env .constDtor i r e) xs m r) (hc : NextIsNot r .comma) :
    Derives (Located S) env .constDtors i r (.ofList (e :: xs)) := by
  induction h2 generalizing i e with
  | nil => exact .constDtorsLast hc h1
  | cons hv he _ ih => exact .constDtorsCons h1 hv (ih he hc)

theorem wp.declarator (hr : RecOk u S r na ni) (hp : Pre S env s) (ha : s.mu ≤ na) :
    wp u (P.declarator r) s (Post S env .dtor 1 s) := by
  unfold P.declarator
  refine wp.spanAst hp.inv ?_
  refine (wp.peek hp.inv).bind fun t s1 h1 => ?_
  have := h1.tr.mu
  have hp1 := h1.tr.pre hp
  split
  · refine (wp.id hp1).bind ?_
    rintro i s2 ⟨t2, hi, h2, -⟩
    have := h2.mu
    refine (wp.matches h2.inv rfl).bind ?_
    rintro _ s3 ⟨t3, ⟨rfl, hv3, h3⟩ | ⟨rfl, hv3, h3⟩⟩
    · have := h3.zero.mu
      refine (hr.assign s3 env (h3.tr.pre (h2.pre hp1)) (by omega)).bind fun e s4 h4 => ?_
      refine wp.pure_bind ?_
      refine (h1.tr.trans (h2.trans (h3.zero.trans h4))).mono (by omega) ?_
      rintro a b ⟨_, ⟨rfl, _⟩, _, rfl, _, rfl, hd⟩ l hl
      exact .dtorInit hi hv3 hd hl
    · refine wp.pure_bind ?_
      refine (h1.tr.trans (h2.trans h3.tr)).mono (by omega) ?_
      rintro a b ⟨_, ⟨rfl, _⟩, _, rfl, rfl, r, rfl⟩ l hl
      exact .dtorNone ⟨_, _, rfl, hv3⟩ hi hl
  · exact (wp.bindingPattern hp1.inv).bind fun _ _ h => h

theorem wp.constDeclarator (hr : RecOk u S r na ni) (hp : Pre S env s) (ha : s.mu ≤ na) :
    wp u (P.constDeclarator r) s (Post S env .constDtor 1 s) := by
  unfold P.constDeclarator
  refine (wp.patternPost hp).bind fun p s1 h1 => ?_
  have := h1.mu
  refine (wp.expect h1.inv rfl).bind ?_
  rintro t2 s2 ⟨hv2, h2⟩
  have := h2.zero.mu
  refine (hr.assign s2 env (h2.tr.pre (h1.pre hp)) (by omega)).bind fun e s3 h3 => ?_
  refine (h1.trans (h2.zero.trans h3)).mono (Nat.le_add_right ..) ?_
  rintro a b ⟨_, hd, _, rfl, he⟩
  exact .constDtor hd hv2 he

theorem wp.dtors (hr : RecOk u S r na ni) (hp : Pre S env s) (ha : s.mu ≤ na) :
    wp u (P.commaSeparated (P.declarator r)) s (fun ds s' =>
      Post S env .dtors 1 s (.ofList ds) s') := by
  refine (wp.commaSeparated hp (b := na + 1) (by omega)
    fun s hs hb => wp.declarator hr hs (by omega)).mono ?_
  rintro _ s' ⟨x, xs, rfl, h⟩
  refine h.imp ?_
  rintro a b ⟨m, h1, h2, h3⟩
  exact dtors_of_comma h1 h2 h3

theorem wp.constDtors (hr : RecOk u S r na ni) (hp : Pre S env s) (ha : s.mu ≤ na) :
    wp u (P.commaSeparated (P.constDeclarator r)) s (fun ds s' =>
      Post S env .constDtors 1 s (.ofList ds) s') := by
  refine (wp.commaSeparated hp (b := na + 1) (by omega)
    fun s hs hb => wp.constDeclarator hr hs (by omega)).mono ?_
  rintro _ s' ⟨x, xs, rfl, h⟩
  refine h.imp ?_
  rintro a b ⟨m, h1, h2, h3⟩
  exact constDtors_of_comma h1 h2 h3

theorem wp.varStatement (hr : RecOk u S r na ni) (hp : Pre S env s) (ha : s.mu ≤ na)
    {tl : List Token} (hla : s.la = t :: tl) (hv : t.value = .reserved .var) :
    wp u (P.varStatement r) s (Post S env .stmt 1 s) := by
  unfold P.varStatement
  refine wp.posn_bind ?_
  refine (wp.reread hp.inv hla hv rfl).bind ?_
  rintro _ s1 ⟨rfl, h1⟩
  have := h1.zero.mu
  refine (wp.dtors hr (h1.tr.pre hp) (by omega)).bind fun ds s2 h2 => ?_
  refine wp.endStmt' hp.inv (((h1.one hv).trans h2).mono (m := 1) (by omega) fun _ _ h => h) ?_
  rintro i k r semi l ⟨_, rfl, hd⟩ hterm hl
  exact .varStmt hv hd hterm hl

theorem wp.constDeclaration (hr : RecOk u S r na ni) (hp : Pre S env s) (ha : s.mu ≤ na)
    {tl : List Token} (hla : s.la = t :: tl) (hv : t.value = .reserved .const) :
    wp u (P.constDeclaration r) s (Post S env .decl 1 s) := by
  unfold P.constDeclaration
  refine wp.posn_bind ?_
  refine (wp.reread hp.inv hla hv rfl).bind ?_
  rintro _ s1 ⟨rfl, h1⟩
  have := h1.zero.mu
  refine (wp.constDtors hr (h1.tr.pre hp) (by omega)).bind fun ds s2 h2 => ?_
  refine wp.endStmt' hp.inv (((h1.one hv).trans h2).mono (m := 1) (by omega) fun _ _ h => h) ?_
  rintro i k r semi l ⟨_, rfl, hd⟩ hterm hl
  exact .declConst hv hd hterm hl

/-! ### Simple statements -/

theorem wp.emptyStatement (hp : Pre S env s) :
    wp u P.emptyStatement s (Post S env .stmt 1 s) := by
  unfold P.emptyStatement
  refine wp.spanAst hp.inv ?_
  refine (wp.expect hp.inv rfl).bind ?_
  rintro t s1 ⟨hv, h1⟩
  refine (h1.one hv).imp ?_
  rintro a b rfl l hl
  exact .emptyStmt hv hl

theorem wp.ifStatement (hr : RecOk u S r na ni) (hp : Pre S env s) (ha : s.mu ≤ na)
    (hi : s.mu ≤ ni) : wp u (P.ifStatement r) s (Post S env .stmt 1 s) := by
  unfold P.ifStatement
  refine wp.spanAst hp.inv ?_
  refine (wp.expect hp.inv rfl).bind ?_
  rintro t1 s1 ⟨hv1, h1⟩
  have h1' := h1.one hv1
  have := h1'.mu
  have hp1 := h1.tr.pre hp
  refine (wp.parenExpression hr hp1 (by omega)).bind fun e s2 h2 => ?_
  have := h2.mu
  have hp2 := h2.pre hp1
  refine (wp.statement hr hp2 (by omega)).bind fun x s3 h3 => ?_
  have := h3.mu
  have hp3 := h3.pre hp2
  refine (wp.peek h3.inv).bind fun t4 s4 h4 => ?_
  have := h4.tr.mu
  have hp4 := h4.tr.pre hp3
  rw [eqv_plain rfl]
  refine wp.ite (fun hc => ?_) (fun hc => ?_)
  · obtain ⟨tl, hla⟩ := h4.la
    have hv4 : t4.value = .reserved .else := by simpa using hc
    refine (wp.reread h4.tr.inv hla hv4 rfl).bind ?_
    rintro _ s5 ⟨rfl, h5⟩
    have := h5.zero.mu
    refine (wp.statement hr (h5.tr.pre hp4) (by omega)).bind fun y s6 h6 => ?_
    refine wp.pure_bind ?_
    refine (h1'.trans (h2.trans (h3.trans (h4.tr.trans (h5.zero.trans h6))))).mono (by omega) ?_
    rintro a b ⟨_, rfl, _, ⟨t2, i1, t3, rfl, hv2, he, hv3⟩, _, hx, _, ⟨rfl, _, rfl⟩, _, hc, hy⟩ l hl
    cases hc
    exact .ifElseStmt hv1 hv2 he hv3 hx hv4 hy hl
  · refine wp.pure_bind ?_
    refine (h1'.trans (h2.trans (h3.trans h4.tr))).mono (by omega) ?_
    rintro a b ⟨_, rfl, _, ⟨t2, i1, t3, rfl, hv2, he, hv3⟩, _, hx, rfl, _, rfl⟩ l hl
    exact .ifStmt hv1 hv2 he hv3 hx ⟨_, _, rfl, by simpa using hc⟩ hl

theorem wp.iterationBody (hr : RecOk u S r na ni) (hp : Pre S env s) (hi : s.mu < ni) :
    wp u (P.iterationBody r) s (Post S env.loopBody .stmt 1 s) := by
  unfold P.iterationBody
  refine wp.get_bind (wp.modify_bind ?_)
  generalize hs1 : ({ s with ctx := { s.ctx with iteration := true } } : PState) = s1
  have hl : s1.lexer = s.lexer := by rw [← hs1]
  have hmu : s1.mu = s.mu := by simp [PState.mu, hl]
  have hp1 : Pre S env.loopBody s1 := ⟨hp.inv.congr hl, by
    subst hs1
    obtain ⟨a1, a2, a3, a4, a5, a6, a7, a8⟩ := hp.env
    exact ⟨a1, a2, a3, rfl, a5, a6, a7, a8⟩⟩
  refine (wp.statement hr hp1 (by omega)).bind fun a s' ht => ?_
  refine wp.modify_bind (wp.pure ?_)
  refine ht.inside hl rfl ?_
  subst hs1
  have hk := ht.frame
  refine ⟨hk.goal, hk.validate, ?_, hk.labels⟩
  show ({ s'.ctx with iteration := s.ctx.iteration } : Ctx) = _
  rw [hk.ctx]

theorem wp.doStatement (hr : RecOk u S r na ni) (hp : Pre S env s) (ha : s.mu ≤ na)
    (hi : s.mu ≤ ni) {tl : List Token} (hla : s.la = t :: tl) (hv : t.value = .reserved .do) :
    wp u (P.doStatement r) s (Post S env .stmt 1 s) := by
  unfold P.doStatement
  refine wp.posn_bind ?_
  refine (wp.reread hp.inv hla hv rfl).bind ?_
  rintro _ s1 ⟨rfl, h1⟩
  have h1' := h1.one hv
  have := h1'.mu
  have hp1 := h1.tr.pre hp
  refine (wp.iterationBody hr hp1 (by omega)).bind fun x s2 h2 => ?_
  have := h2.mu
  have hp2 := h2.pre hp1
  refine (wp.expect h2.inv rfl).bind ?_
  rintro t3 s3 ⟨hv3, h3⟩
  have := h3.zero.mu
  refine (wp.parenExpression hr (h3.tr.pre hp2) (by omega)).bind fun e s4 h4 => ?_
  refine wp.endStmt' hp.inv ((h1'.trans (h2.trans (h3.zero.trans h4))).mono (m := 1) (by omega)
    fun _ _ h => h) ?_
  rintro i k r semi l ⟨_, rfl, _, hx, _, rfl, t2, i1, t3, rfl, hv2, he, hv4⟩ hterm hl
  exact .doStmt hv hx hv3 hv2 he hv4 hterm hl

theorem wp.whileStatement (hr : RecOk u S r na ni) (hp : Pre S env s) (ha : s.mu ≤ na)
    (hi : s.mu ≤ ni) {tl : List Token} (hla : s.la = t :: tl) (hv : t.value = .reserved .while) :
    wp u (P.whileStatement r) s (Post S env .stmt 1 s) := by
  unfold P.whileStatement
  refine wp.spanAst hp.inv ?_
  refine (wp.reread hp.inv hla hv rfl).bind ?_
  rintro _ s1 ⟨rfl, h1⟩
  have h1' := h1.one hv
  have := h1'.mu
  have hp1 := h1.tr.pre hp
  refine (wp.parenExpression hr hp1 (by omega)).bind fun e s2 h2 => ?_
  have := h2.mu
  refine (wp.iterationBody hr (h2.pre hp1) (by omega)).bind fun x s3 h3 => ?_
  refine (h1'.trans (h2.trans h3)).mono (by omega) ?_
  rintro a b ⟨_, rfl, _, ⟨t2, i1, t3, rfl, hv2, he, hv3⟩, hx⟩ l hl
  exact .whileStmt hv hv2 he hv3 hx hl

/-! ### `for` -/

/-- What follows `for (`. -/
def ForTail (S : Str) (env : Scope) (x : Stmt) (i r : List Token) : Prop :=
  ∀ t t2 l, t.value = .reserved .for → t2.value = .lParen → Located S (t :: t2 :: i) r l →
    Derives (Located S) env .stmt (t :: t2 :: i) r (x.setLoc l)

theorem wp.expressionOptSemi (hr : RecOk u S r na ni) (hp : Pre S env s) (ha : s.mu < na) :
    wp u (P.expressionOptSemi r) s (fun x s' => Tr S 0 s s' (fun i r =>
      ∃ t, t.value = .semi ∧ Derives (Located S) env .exprOpt i (t :: r) x)) := by
  unfold P.expressionOptSemi
  refine (wp.matches hp.inv rfl).bind ?_
  rintro _ s1 ⟨t1, ⟨rfl, hv1, h1⟩ | ⟨rfl, hv1, h1⟩⟩
  · exact h1.zero.imp (by rintro a b rfl; exact ⟨_, hv1, .exprOptNone⟩)
  · have := h1.tr.mu
    refine (wp.exprIn hr true (h1.tr.pre hp) (by omega)).bind fun e s2 h2 => ?_
    refine (wp.expect h2.inv rfl).bind ?_
    rintro t3 s3 ⟨hv3, h3⟩
    refine (h1.tr.trans (h2.trans h3.zero)).mono (by omega) ?_
    rintro a b ⟨_, ⟨rfl, _⟩, _, hd, rfl⟩
    exact ⟨_, hv3, .exprOptSome hd⟩

theorem wp.forUpdate (hr : RecOk u S r na ni) (hp : Pre S env s) (ha : s.mu < na) :
    wp u (P.forUpdate r) s (fun x s' => Tr S 0 s s' (fun i r =>
      ∃ t, t.value = .rParen ∧ Derives (Located S) env .exprOpt i (t :: r) x)) := by
  unfold P.forUpdate
  refine (wp.matches hp.inv rfl).bind ?_
  rintro _ s1 ⟨t1, ⟨rfl, hv1, h1⟩ | ⟨rfl, hv1, h1⟩⟩
  · exact h1.zero.imp (by rintro a b rfl; exact ⟨_, hv1, .exprOptNone⟩)
  · have := h1.tr.mu
    refine (wp.exprIn hr true (h1.tr.pre hp) (by omega)).bind fun e s2 h2 => ?_
    refine (wp.expect h2.inv rfl).bind ?_
    rintro t3 s3 ⟨hv3, h3⟩
    refine (h1.tr.trans (h2.trans h3.zero)).mono (by omega) ?_
    rintro a b ⟨_, ⟨rfl, _⟩, _, hd, rfl⟩
    exact ⟨_, hv3, .exprOptSome hd⟩

theorem wp.moreFor (hr : RecOk u S r na ni) {head : Ast (.opt .forHead)} (hp : Pre S env s)
    (ha : s.mu < na) (hi : s.mu < ni) :
    wp u (P.moreFor r head) s (fun x s' => Tr S 0 s s' (fun i r => ∀ i0,
      Derives (Located S) env .forHead i0 i head → ForTail S env x i0 r)) := by
  unfold P.moreFor
  refine (wp.expressionOptSemi hr hp ha).bind fun e1 s1 h1 => ?_
  have := h1.mu
  refine (wp.forUpdate hr (h1.pre hp) (by omega)).bind fun e2 s2 h2 => ?_
  have := h2.mu
  refine (wp.iterationBody hr (h2.pre (h1.pre hp)) (by omega)).bind fun x s3 h3 => ?_
  refine (h1.trans (h2.trans h3)).mono (by omega) ?_
  rintro a b ⟨_, ⟨t3, hv3, he1⟩, _, ⟨t4, hv4, he2⟩, hx⟩ i0 hd t t2 l hv hv2 hl
  exact .forStmt hv hv2 hd he1 hv3 he2 hv4 hx hl

theorem wp.moreForIn (hr : RecOk u S r na ni) {head : Ast .forInHead} (hp : Pre S env s)
    (ha : s.mu < na) (hi : s.mu < ni) :
    wp u (P.moreForIn r head) s (fun x s' => Tr S 0 s s' (fun i r => ∀ i0 t3,
      t3.value = .reserved .«in» → Derives (Located S) env .forInHead i0 (t3 :: i) head →
      ForTail S env x i0 r)) := by
  unfold P.moreForIn
  refine (wp.assignIn hr true hp ha).bind fun e s1 h1 => ?_
  have := h1.mu
  refine (wp.expect h1.inv rfl).bind ?_
  rintro t2 s2 ⟨hv2, h2⟩
  have := h2.zero.mu
  refine (wp.iterationBody hr (h2.tr.pre (h1.pre hp)) (by omega)).bind fun x s3 h3 => ?_
  refine (h1.trans (h2.zero.trans h3)).mono (by omega) ?_
  rintro a b ⟨_, he, _, rfl, hx⟩ i0 t3 hv3 hd t t2 l hv hv' hl
  exact .forInStmt hv hv' hd hv3 he hv2 hx hl

theorem wp.moreForOf (hr : RecOk u S r na ni) {head : Ast .forOfHead} (hp : Pre S env s)
    (ha : s.mu < na) (hi : s.mu < ni) :
    wp u (P.moreForOf r head) s (fun x s' => Tr S 0 s s' (fun i r => ∀ i0 t3,
      t3.value = .identifier (.atom .of) → Derives (Located S) env .forOfHead i0 (t3 :: i) head →
      ForTail S env x i0 r)) := by
  unfold P.moreForOf
  refine (wp.assignIn hr true hp ha).bind fun e s1 h1 => ?_
  have := h1.mu
  refine (wp.expect h1.inv rfl).bind ?_
  rintro t2 s2 ⟨hv2, h2⟩
  have := h2.zero.mu
  refine (wp.iterationBody hr (h2.tr.pre (h1.pre hp)) (by omega)).bind fun x s3 h3 => ?_
  refine (h1.trans (h2.zero.trans h3)).mono (by omega) ?_
  rintro a b ⟨_, he, _, rfl, hx⟩ i0 t3 hv3 hd t t2 l hv hv' hl
  exact .forOfStmt hv hv' hd hv3 he hv2 hx hl

theorem wp.moreForHead (hr : RecOk u S r na ni) {start : Loc} {dtor : Ast .dtor}
    {op : Loc → Ast (.list .dtor) → Ast .forHead} (hp : Pre S env s)
    (ha : s.mu < na) (hi : s.mu < ni) :
    wp u (P.moreForHead r start dtor op) s (fun x s' => Tr S 0 s s' (fun i r => ∀ i0 i1,
      Derives (Located S) (env.withIn false) .headDtor i1 i dtor →
      (∀ ds t2 rest, Derives (Located S) (env.withIn false) .headDtors i1 (t2 :: rest) ds →
        t2.value = .semi → Derives (Located S) env .forHead i0 rest
          (.some (op (spanLoc start (some t2.location)) ds))) →
      ForTail S env x i0 r)) := by
  unfold P.moreForHead
  refine wp.bind (wp.allowIn (n := 0) (b := false)
    (R := fun l i r => ∃ xs, l = dtor :: xs ∧
      MoreComma (fun e i r => Derives (Located S) (env.withIn false) .dtor i r e) xs i r ∧
      NextIsNot r .comma) hp ?_)
    fun ds s1 h1 => ?_
  · intro s1 hmu _ hp1
    refine (wp.moreComma hp1 (b := s1.mu) (Nat.le_refl _) fun s2 hp2 hmu2 =>
      (wp.declarator hr hp2 (by omega)).mono fun _ _ h =>
        h.mono (Nat.zero_le _) fun _ _ h => h).mono ?_
    rintro l s2 ⟨xs, rfl, h2⟩
    exact h2.imp fun _ _ h => ⟨xs, rfl, h⟩
  · have := h1.mu
    refine (wp.expect h1.inv rfl).bind ?_
    rintro t2 s2 ⟨hv2, h2⟩
    have := h2.zero.mu
    refine (wp.moreFor hr (h2.tr.pre (h1.pre hp)) (by omega) (by omega)).mono fun x s3 h3 => ?_
    refine (h1.trans (h2.zero.trans h3)).mono (by omega) ?_
    rintro a b ⟨_, ⟨xs, rfl, hm, hc⟩, _, rfl, hx⟩ i0 i1 hd hf
    exact hx _ (hf _ _ _ (headDtors_of_comma hd hm hc) hv2)

end P

end Esprit
