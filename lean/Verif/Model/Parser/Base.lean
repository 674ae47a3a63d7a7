import Verif.Model.Lexer
import Verif.Model.Cover

/-!
Model of the parser's infrastructure: `src/context.rs`, `src/error.rs`,
`src/atom.rs`, `src/tokens.rs`, `src/state.rs`, `src/track.rs`,
`src/expr.rs`, and the parser state of `src/parser.rs`.
-/

namespace Esprit

/-- The external crate `tristate` 0.1.1: `TriState`. -/
inductive TriState where
  | yes | no | unknown
  deriving DecidableEq, Repr

/-- The external crate `tristate` 0.1.1: `From<bool> for TriState`. -/
def TriState.ofBool : Bool → TriState
  | true => .yes
  | false => .no

/-- context.rs:53-57 `LabelType`. -/
inductive LabelType where
  | statement | iteration
  deriving DecidableEq, Repr

/-- context.rs:59-64 `Goal`. -/
inductive Goal where
  | script | module | unknown
  deriving DecidableEq, Repr

/-- context.rs:77 the `labels` hash map, as an association list with at most one
entry per key. -/
abbrev Labels := List (Name × LabelType)

namespace Labels

/-- `HashMap::get`. -/
def get (ls : Labels) (n : Name) : Option LabelType := (ls.find? fun e => e.1 = n).map (·.2)

/-- `HashMap::remove`. -/
def remove (ls : Labels) (n : Name) : Labels := ls.filter fun e => e.1 ≠ n

/-- `HashMap::insert`. -/
def insert (ls : Labels) (n : Name) (t : LabelType) : Labels := (n, t) :: ls.remove n

end Labels

/-- context.rs:70-78 `Context`. -/
structure Ctx where
  strict : TriState
  function : Bool
  iteration : Bool
  switch : Bool
  allowIn : Bool
  labels : Labels
  deriving DecidableEq, Repr

/-- context.rs:81-90 `Context::new`. -/
def Ctx.new : Ctx := ⟨.unknown, false, false, false, true, []⟩

/-- context.rs:92-101 `Context::new_function`. -/
def Ctx.newFunction (c : Ctx) : Ctx := ⟨c.strict, true, false, false, true, []⟩

/-- error.rs:14-38 `Error`. -/
inductive PError where
  | unexpectedToken (t : Token)
  | failedASI (t : Token)
  | lexError (e : LexError)
  | topLevelReturn (s : Span)
  | illegalBreak (t : Token)
  | illegalContinue (t : Token)
  | invalidLabel (i : Id)
  | invalidLabelType (i : Id)
  | contextualKeyword (s : Span) (a : Atom)
  | illegalStrictBinding (s : Span) (a : Atom)
  | unexpectedDirective (l : Loc) (s : StringLiteral)
  | unexpectedModule (l : Loc)
  | importInScript (i : Ast .«import»)
  | exportInScript (e : Ast .«export»)
  | forOfLetExpr (s : Span)
  | duplicateDefault (t : Token)
  | strictWith (t : Token)
  | throwArgument (t : Token)
  | orphanTry (t : Token)
  | invalidLHS (l : Loc) (e : CoverError)
  | unsupportedFeature (s : Str)
  | compoundParamWithUseStrict (p : Ast (.comp .id))

/-- error.rs:84-88 `Check`. -/
inductive Check where
  | strict (e : PError)
  | module (e : PError)

/-- error.rs:90-103 `Check::perform`; `none` is `Ok(())`. -/
def Check.perform (module : Bool) : Check → Option PError
  | .strict e => some e
  | .module e => if module then some e else none

/-- atom.rs:26-43 `Atom::is_strict_reserved`. -/
def Atom.isStrictReserved : Atom → TriState
  | .await => .unknown
  | .implements | .interface | .«let» | .package | .«private» | .«protected» | .«public»
  | .static | .yield => .yes
  | _ => .no

/-- atom.rs:46-52 `Atom::is_illegal_strict_binding`. -/
def Atom.isIllegalStrictBinding : Atom → Bool
  | .arguments | .eval => true
  | _ => false

/-- atom.rs:10-15 `Name::is_strict_reserved`. -/
def Name.isStrictReserved : Name → TriState
  | .atom a => a.isStrictReserved
  | .string _ => .no

/-- atom.rs:17-22 `Name::is_illegal_strict_binding`. -/
def Name.isIllegalStrictBinding : Name → Bool
  | .atom a => a.isIllegalStrictBinding
  | .string _ => false

/-- tokens.rs:25-32 `first_binding`. -/
def Token.firstBinding (t : Token) : Bool :=
  match t.value with
  | .lBrace | .lBrack | .identifier _ => true
  | _ => false

/-- tokens.rs:68-76 `follow_statement_list`. -/
def Token.followStatementList (t : Token) : Bool :=
  match t.value with
  | .reserved .case | .reserved .default | .eof | .rBrace => true
  | _ => false

/-- tokens.rs:78-111 `expression_continuation`. -/
def Token.expressionContinuation (t : Token) : Bool :=
  match t.value with
  | .semi | .rBrace | .eof => false
  | .reserved .«in» | .reserved .instanceof => true
  | .inc | .dec => !t.newline
  | .reserved _ | .lBrace | .rBrack | .rParen | .bang | .tilde | .colon | .arrow
  | .number _ | .string _ | .regExp _ | .identifier _ => false
  | _ => true

/-- tokens.rs:119-126 `label_type`. -/
def Token.labelType (t : Token) : LabelType :=
  match t.value with
  | .reserved .do | .reserved .while | .reserved .for => .iteration
  | _ => .statement

/-- parser.rs:31-37 `Parser<I>`. -/
structure PState where
  goal : Goal
  validate : Bool
  deferred : List Check
  lexer : Lexer
  ctx : Ctx

/-- A parser function `fn(&mut Parser) -> Result<α>`.  The state after an error
or a panic is not modelled: all of them abort the parse. -/
def P (α : Type) : Type := PState → Res PError (α × PState)

namespace P

variable {α β σ : Type}

/-- `Ok(a)`. -/
def ret (a : α) : P α := fun s => .ok (a, s)

/-- Rust `?`. -/
def bind (m : P α) (f : α → P β) : P β := fun s =>
  match m s with
  | .ok (a, s') => f a s'
  | .err e => .err e
  | .panic p => .panic p
  | .fuel => .fuel

instance : Monad P where
  pure := ret
  bind := bind

/-- `Err(e)`. -/
def throw (e : PError) : P α := fun _ => .err e

/-- A Rust panic. -/
def panic (p : Panic) : P α := fun _ => .panic p

/-- Read the parser state. -/
def get : P PState := fun s => .ok (s, s)

/-- Update the parser state. -/
def modify (f : PState → PState) : P Unit := fun s => .ok ((), f s)

/-- A call of a lexer method; errors are wrapped by `Error::LexError`. -/
def lex (f : Lexer → Res LexError (α × Lexer)) : P α := fun s =>
  match f s.lexer with
  | .ok (a, l) => .ok (a, { s with lexer := l })
  | .err e => .err (.lexError e)
  | .panic p => .panic p
  | .fuel => .fuel

/-- The iterations of a loop: `step` either yields a new loop state or
breaks with a result. -/
def loopN (step : σ → P (σ ⊕ β)) : Nat → σ → P β
  | 0, _ => fun _ => .fuel
  | n + 1, a => fun s =>
    match step a s with
    | .ok (.inl a', s') => loopN step n a' s'
    | .ok (.inr b, s') => .ok (b, s')
    | .err e => .err e
    | .panic p => .panic p
    | .fuel => .fuel

/-- A Rust `loop`/`while` with the mutable variables `σ`.  The number of
iterations is bounded by the unread input plus the buffered tokens: every
loop of the parser consumes a token in each iteration that does not break
(proved in `Verif/Proofs/Parser`: the bound is never reached). -/
def loop (step : σ → P (σ ⊕ β)) (init : σ) : P β := fun s =>
  loopN step (s.lexer.reader.rest.length + s.lexer.lookahead.length + 1) init s

end P

section State

variable [Env]

namespace P

/-- state.rs:25-27 `read`. -/
def read : P Token := lex (Lexer.readToken false)

/-- state.rs:29-31 `read_op`. -/
def readOp : P Token := lex (Lexer.readToken true)

/-- state.rs:33-35 `peek`. -/
def peek : P Token := lex (Lexer.peekToken false)

/-- state.rs:37-39 `peek_op`. -/
def peekOp : P Token := lex (Lexer.peekToken true)

/-- state.rs:21-23 `skip`. -/
def skip : P Unit := lex (Lexer.skipToken false)

/-- `self.lexer.unread_token(token)`. -/
def unread (t : Token) : P Unit := lex (Lexer.unreadToken t)

/-- `self.lexer.reread_token()`. -/
def rereadToken : P Token := lex Lexer.rereadToken

/-- state.rs:41-47 `expect`. -/
def expect (expected : TokenData) : P Token := do
  let token ← read
  if !token.value.eqv expected then throw (.unexpectedToken token)
  else pure token

/-- state.rs:49-56 `matches_token`. -/
def matchesToken (expected : TokenData) : P (Option Token) := do
  let token ← read
  if !token.value.eqv expected then do
    unread token
    pure none
  else pure (some token)

/-- state.rs:58-65 `matches`. -/
def «matches» (expected : TokenData) : P Bool := do
  let token ← read
  if !token.value.eqv expected then do
    unread token
    pure false
  else pure true

/-- state.rs:67-74 `matches_op`. -/
def matchesOp (expected : TokenData) : P Bool := do
  let token ← readOp
  if !token.value.eqv expected then do
    unread token
    pure false
  else pure true

/-- state.rs:76-81 `reread`; the `debug_assert!` is modelled as always
enabled. -/
def reread (expected : TokenData) : P Token := do
  let token ← lex Lexer.repeekToken
  if !token.value.eqv expected then panic .debugAssert
  else rereadToken

/-- state.rs:83-86 `has_arg_same_line`. -/
def hasArgSameLine : P Bool := do
  let next ← peek
  pure (!next.newline && !next.value.eqv .semi && !next.value.eqv .rBrace)

/-- track.rs:28-30 `posn`, joker lexer.rs:55 `posn`. -/
def posn : P Posn := fun s => .ok (s.lexer.reader.posn, s)

/-- track.rs:36-45 `span`. -/
def span {α : Type} [Tracking α] (parse : P α) : P α := do
  let start ← posn
  let value ← parse
  let «end» ← posn
  pure (Tracking.setLoc (some ⟨start, «end»⟩) value)

/-- track.rs:19-26 `vec_span`. -/
def vecSpan {c : Cat} (v : List (Ast c)) : P Loc := do
  match v.head?, v.getLast? with
  | some first, some last => pure (spanLoc first.loc last.loc)
  | _, _ => do
    let here ← posn
    pure (some ⟨here, here⟩)

/-- track.rs:48-52 `Newline`. -/
inductive Newline where
  | required | optional
  deriving DecidableEq

/-- track.rs:71-101 `SpanTracker::end_with_auto_semi`. -/
def endWithAutoSemi {α : Type} [Tracking α] (start : Posn) (newline : Newline) (cons : Semi → α) :
    P α := do
  let before ← posn
  let token ← peek
  match token.value with
  | .semi => do
    let _ ← reread .semi
    let after ← posn
    pure (Tracking.setLoc (some ⟨start, after⟩) (cons (.explicit (some token.location.start))))
  | .rBrace | .eof =>
    pure (Tracking.setLoc (some ⟨start, before⟩) (cons .inserted))
  | _ =>
    if newline = .required && !token.newline then do
      let token ← read
      throw (.failedASI token)
    else
      pure (Tracking.setLoc (some ⟨start, before⟩) (cons .inserted))

/-- context.rs:43-50 `allow_in`. -/
def allowIn {α : Type} (allow : Bool) (parse : P α) : P α := do
  let s ← get
  modify fun s => { s with ctx := { s.ctx with allowIn := allow } }
  let result ← parse
  modify fun s' => { s' with ctx := { s'.ctx with allowIn := s.ctx.allowIn } }
  pure result

/-- context.rs:21-40 `with_labels`. -/
def withLabels (labels : List Id) (labelType : LabelType) (op : P Stmt) : P Stmt := do
  modify fun s => { s with ctx := { s.ctx with
    labels := labels.foldl (fun ls i => ls.insert i.name labelType) s.ctx.labels } }
  let body ← op
  modify fun s => { s with ctx := { s.ctx with
    labels := labels.foldl (fun ls i => ls.remove i.name) s.ctx.labels } }
  pure (labels.reverse.foldl (fun body i => .sLabel (spanLoc i.location body.loc) i body) body)

/-- parser.rs:162-164 `unexpected`. -/
def unexpected {α : Type} : P α := do
  let t ← rereadToken
  throw (.unexpectedToken t)

/-- parser.rs:388-413 `strict_check`. -/
def strictCheck (f : P (Option Check)) : P Unit := do
  let s ← get
  if s.ctx.strict ≠ .no then do
    match ← f with
    | some (.strict error) =>
      if s.ctx.strict = .yes && s.validate then throw error
      else modify fun s => { s with deferred := s.deferred ++ [.strict error] }
    | some (.module error) =>
      if s.goal = .module && s.validate then throw error
      else if s.goal ≠ .script then
        modify fun s => { s with deferred := s.deferred ++ [.module error] }
      else pure ()
    | none => pure ()
  else pure ()

end P

end State

/-! ### `src/expr.rs` -/

/-- expr.rs:7-11 `Prefix`. -/
inductive Prefix where
  | unop (op : Op UnopTag)
  | inc (s : Span)
  | dec (s : Span)

/-- expr.rs:13-16 `Postfix`. -/
inductive Postfix where
  | inc (s : Span)
  | dec (s : Span)

/-- expr.rs:18-21 `Deref`. -/
inductive Deref where
  | brack (e : Expr) (t : Token)
  | dot (k : DotKey)

/-- expr.rs:24-33 `Deref::append_to`. -/
def Deref.appendTo (d : Deref) (expr : Expr) : Expr :=
  match d with
  | .brack deref «end» => .eBrack (spanLoc expr.loc (some «end».location)) expr deref
  | .dot key => .eDot (spanLoc expr.loc key.location) expr key

/-- expr.rs:41-44 `Arguments`. -/
structure Arguments where
  args : List (Ast .item)
  «end» : Token

/-- expr.rs:36-39 `Suffix`. -/
inductive Suffix where
  | deref (d : Deref)
  | arguments (a : Arguments)

/-- expr.rs:47-49 `Arguments::append_to`. -/
def Arguments.appendTo (a : Arguments) (expr : Expr) : Expr :=
  .eCall (spanLoc expr.loc (some a.end.location)) expr (.ofList a.args)

/-- expr.rs:51-53 `Arguments::append_to_new`. -/
def Arguments.appendToNew (a : Arguments) (new : Token) (expr : Expr) : Expr :=
  .eNew (spanLoc (some new.location) (some a.end.location)) expr (.some (.ofList a.args))

/-- expr.rs:56-63 `Suffix::append_to`. -/
def Suffix.appendTo (s : Suffix) (expr : Expr) : Expr :=
  match s with
  | .deref d => d.appendTo expr
  | .arguments a => a.appendTo expr

/-! ### `src/stack.rs` (the `Display` parts, used only for debugging, are not modelled) -/

/-- stack.rs:8-12 `Infix`. -/
inductive Infix where
  | binop (op : Op BinopTag)
  | logop (op : Op LogopTag)
  deriving DecidableEq

/-- stack.rs:29-36 `Infix::precedence`. -/
def Infix.precedence : Infix → Nat
  | .binop op => op.tag.precedence
  | .logop op => op.tag.precedence

/-- stack.rs:15-17 `groups_left`. -/
def Infix.groupsLeft (left right : Infix) : Bool := left.precedence ≥ right.precedence

/-- stack.rs:38-42 `Frame`. -/
structure Frame where
  left : Expr
  op : Infix

/-- stack.rs:51-57 `Frame::fill`. -/
def Frame.fill (f : Frame) (right : Expr) : Expr :=
  let location := spanLoc f.left.loc right.loc
  match f.op with
  | .binop op => .eBinop location op f.left right
  | .logop op => .eLogop location op f.left right

/-- stack.rs:117-120 `Stack`; the top of the stack is the head of the list. -/
abbrev Stack := List Frame

/-- stack.rs:127-133 `Stack::extend`. -/
def Stack.extend : Stack → Expr → Infix → Stack
  | f :: fs, left, op =>
    if f.op.groupsLeft op then Stack.extend fs (f.fill left) op
    else ⟨left, op⟩ :: f :: fs
  | [], left, op => [⟨left, op⟩]

/-- stack.rs:135-140 `Stack::finish`. -/
def Stack.finish : Stack → Expr → Expr
  | f :: fs, right => Stack.finish fs (f.fill right)
  | [], right => right

/-! ### `Dtor` constructors, easter `src/decl.rs` -/

/-- decl.rs:51-53 `Dtor::from_compound_init`. -/
def Dtor.fromCompoundInit (lhs : Ast (.comp .id)) (rhs : Expr) : Ast .dtor :=
  .dtCompound (spanLoc lhs.loc rhs.loc) lhs rhs

/-- decl.rs:55-57 `Dtor::from_simple_init`. -/
def Dtor.fromSimpleInit (lhs : Id) (rhs : Expr) : Ast .dtor :=
  .dtSimple (spanLoc lhs.location rhs.loc) lhs (.some rhs)

/-- decl.rs:59-64 `Dtor::from_init`. -/
def Dtor.fromInit (lhs : PattId) (rhs : Expr) : Ast .dtor :=
  match lhs with
  | .pSimple (.ident i) => fromSimpleInit i rhs
  | .pCompound p => fromCompoundInit p rhs

/-- decl.rs:66-76 `Dtor::from_init_opt(lhs, None)` (the only use in the
parser); `none` is `Err(lhs)`. -/
def Dtor.fromInitNone (lhs : PattId) : Option (Ast .dtor) :=
  match lhs with
  | .pSimple (.ident i) => some (.dtSimple i.location i .none)
  | .pCompound _ => none

/-- decl.rs:88-94 `ConstDtor::from_init`. -/
def ConstDtor.fromInit (lhs : PattId) (rhs : Expr) : Ast .constDtor :=
  .constDtor (spanLoc lhs.loc rhs.loc) lhs rhs

end Esprit
