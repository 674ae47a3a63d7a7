import Verif.Proofs.Parser.Layout

/-! The basic parser functions see only what the lexer returns. -/

set_option linter.unusedSectionVars false

namespace Esprit

/-! ### Positions in the intermediate results of the parser -/

instance : Blur Semi := ⟨Semi.blur⟩
instance : Blur Prefix := ⟨fun
  | .unop op => .unop op.blur
  | .inc _ => .inc .zero
  | .dec _ => .dec .zero⟩
instance : Blur Postfix := ⟨fun
  | .inc _ => .inc .zero
  | .dec _ => .dec .zero⟩
instance : Blur Infix := ⟨fun
  | .binop op => .binop op.blur
  | .logop op => .logop op.blur⟩
instance : Blur Frame := ⟨fun f => ⟨f.left.blur, Blur.blur f.op⟩⟩
instance : Blur Deref := ⟨fun
  | .brack e t => .brack e.blur t.blur
  | .dot k => .dot k.blur⟩
instance : Blur Arguments := ⟨fun a => ⟨a.args.map Ast.blur, a.end.blur⟩⟩
instance : Blur Suffix := ⟨fun
  | .deref d => .deref (Blur.blur d)
  | .arguments a => .arguments (Blur.blur a)⟩
instance : Blur ProgramItems := ⟨fun
  | .script items => .script (items.map Ast.blur)
  | .module items => .module (items.map Ast.blur)⟩

/-- Setting the location commutes with moving to the origin. -/
class TrackBlur (α : Type) [Blur α] [Tracking α] : Prop where
  setLoc : ∀ (l l' : Span) (a a' : α), Rel a a' →
    Rel (Tracking.setLoc (some l) a) (Tracking.setLoc (some l') a')

instance {c : Cat} : TrackBlur (Ast c) where
  setLoc l l' a a' h := by
    show (Ast.setLoc (some l) a).blur = (Ast.setLoc (some l') a').blur
    have h : a.blur = a'.blur := h
    simp [h]

instance : TrackBlur Dir where
  setLoc l l' a a' h := by
    obtain ⟨l1, s1, e1⟩ := a
    obtain ⟨l2, s2, e2⟩ := a'
    have h : Dir.mk (blurLoc l1) s1 e1.blur = Dir.mk (blurLoc l2) s2 e2.blur := h
    injection h with h1 h2 h3
    show Dir.mk _ s1 e1.blur = Dir.mk _ s2 e2.blur
    rw [h2, h3]
    rfl

instance : TrackBlur Program where
  setLoc l l' a a' h := by
    have h : Program.blur a = Program.blur a' := h
    show Program.blur _ = Program.blur _
    cases a <;> cases a' <;> simp_all [Program.blur, Tracking.setLoc]

theorem Rel.tok {t t' : Token} (h : Rel t t') :
    ∃ l l' nl v, t = ⟨l, nl, v⟩ ∧ t' = ⟨l', nl, v⟩ := by
  obtain ⟨l, nl, v⟩ := t
  obtain ⟨l', nl', v'⟩ := t'
  have h : Token.mk .zero nl v = ⟨.zero, nl', v'⟩ := h
  injection h with _ h1 h2
  subst h1; subst h2
  exact ⟨_, _, _, _, rfl, rfl⟩

theorem blurLoc_def (l : Loc) : Option.map (fun _ : Span => Span.zero) l = blurLoc l := rfl

/-- Show that two results are the same up to positions. -/
macro "rel" : tactic => `(tactic| first
  | exact Rel.refl _
  | exact rfl
  | assumption
  | (simp only [Rel, Blur.blur, PError.blur, Check.blur] at *; simp_all [blurLoc_def]; done))

/-! ### Tokens -/

/-- `Token::first_binding`, of a value. -/
def firstBindingV (v : TokenData) : Bool := Token.firstBinding ⟨.zero, false, v⟩
/-- `Token::follow_statement_list`, of a value. -/
def followStatementListV (v : TokenData) : Bool := Token.followStatementList ⟨.zero, false, v⟩
/-- `Token::expression_continuation`, of a value. -/
def expressionContinuationV (nl : Bool) (v : TokenData) : Bool :=
  Token.expressionContinuation ⟨.zero, nl, v⟩
/-- `Token::label_type`, of a value. -/
def labelTypeV (v : TokenData) : LabelType := Token.labelType ⟨.zero, false, v⟩

theorem firstBinding_v (l : Span) (nl : Bool) (v : TokenData) :
    Token.firstBinding ⟨l, nl, v⟩ = firstBindingV v := rfl
theorem followStatementList_v (l : Span) (nl : Bool) (v : TokenData) :
    Token.followStatementList ⟨l, nl, v⟩ = followStatementListV v := rfl
theorem expressionContinuation_v (l : Span) (nl : Bool) (v : TokenData) :
    Token.expressionContinuation ⟨l, nl, v⟩ = expressionContinuationV nl v := rfl
theorem labelType_v (l : Span) (nl : Bool) (v : TokenData) :
    Token.labelType ⟨l, nl, v⟩ = labelTypeV v := rfl

variable [Env] [Prompt] {α β : Type} [Blur α] [Blur β]

/-- The functions of the recursive knot. -/
structure RecJ (r r' : Rec) : Prop where
  assign : J r.assign r'.assign r'.assign
  item : ∀ b, J (r.item b) (r'.item b) (r'.item b)

namespace J

open JP

variable {pre : List Token} {Post : α → List Token → Prop} {Post2 : β → List Token → Prop}

theorem bindTok {m1 m2 m3 : P Token} {f1 f2 f3 : Token → P β} (h : JP pre Nil m1 m2 m3)
    (hf : ∀ l l' nl v, JP [] Post2 (f1 ⟨l, nl, v⟩) (f2 ⟨l, nl, v⟩) (f3 ⟨l', nl, v⟩)) :
    JP pre Post2 (m1 >>= f1) (m2 >>= f2) (m3 >>= f3) := by
  refine bind h fun a a' ha => ?_
  obtain ⟨l, nl, v⟩ := a
  obtain ⟨l', nl', v'⟩ := a'
  have ha : Token.mk .zero nl v = ⟨.zero, nl', v'⟩ := ha
  injection ha with _ h1 h2
  subst h1; subst h2
  exact hf l l' nl v

/-- Reading a token. -/
theorem bindRead {m1 m2 m3 : P Token} {f1 f2 f3 : Token → P β} (h : JP [] Tok m1 m2 m3)
    (hf : ∀ l l' nl v, JP [⟨l, nl, v⟩] Post2 (f1 ⟨l, nl, v⟩) (f2 ⟨l, nl, v⟩) (f3 ⟨l', nl, v⟩)) :
    JP pre Post2 (m1 >>= f1) (m2 >>= f2) (m3 >>= f3) := by
  refine weaken (bindP h (fun t => ⟨[t], rfl⟩) fun a a' ha g hg => ?_)
  subst hg
  obtain ⟨l, nl, v⟩ := a
  obtain ⟨l', nl', v'⟩ := a'
  have ha : Token.mk .zero nl v = ⟨.zero, nl', v'⟩ := ha
  injection ha with _ h1 h2
  subst h1; subst h2
  exact hf l l' nl v

/-- Keeping in mind the tokens read before. -/
theorem bindKeep {m1 m2 m3 : P α} {f1 f2 f3 : α → P β}
    (h : JP pre (fun _ g => g = pre) m1 m2 m3)
    (hf : ∀ a a', Rel a a' → JP pre Post2 (f1 a) (f2 a) (f3 a')) :
    JP pre Post2 (m1 >>= f1) (m2 >>= f2) (m3 >>= f3) :=
  bindP h (fun _ => ⟨pre, rfl⟩) fun a a' ha g hg => by subst hg; exact hf a a' ha

theorem bindKeepTok {m1 m2 m3 : P Token} {f1 f2 f3 : Token → P β}
    (h : JP pre (fun _ g => g = pre) m1 m2 m3)
    (hf : ∀ l l' nl v, JP pre Post2 (f1 ⟨l, nl, v⟩) (f2 ⟨l, nl, v⟩) (f3 ⟨l', nl, v⟩)) :
    JP pre Post2 (m1 >>= f1) (m2 >>= f2) (m3 >>= f3) := by
  refine bindKeep h fun a a' ha => ?_
  obtain ⟨l, nl, v⟩ := a
  obtain ⟨l', nl', v'⟩ := a'
  have ha : Token.mk .zero nl v = ⟨.zero, nl', v'⟩ := ha
  injection ha with _ h1 h2
  subst h1; subst h2
  exact hf l l' nl v

/-- Looking at the next token. -/
theorem bindPeek {f1 f2 f3 : Token → P β} (hpre : pre.length ≤ 1)
    (hf : ∀ l l' nl v, JP pre Post2 (f1 ⟨l, nl, v⟩) (f2 ⟨l, nl, v⟩) (f3 ⟨l', nl, v⟩)) :
    JP pre Post2 (P.peek >>= f1) (P.peek >>= f2) (P.peek >>= f3) :=
  bindKeepTok (peekTokenP false hpre) hf

theorem bindPeekOp {f1 f2 f3 : Token → P β} (hpre : pre.length ≤ 1)
    (hf : ∀ l l' nl v, JP pre Post2 (f1 ⟨l, nl, v⟩) (f2 ⟨l, nl, v⟩) (f3 ⟨l', nl, v⟩)) :
    JP pre Post2 (P.peekOp >>= f1) (P.peekOp >>= f2) (P.peekOp >>= f3) :=
  bindKeepTok (peekTokenP true hpre) hf

theorem bindBool {m1 m2 m3 : P Bool} {f1 f2 f3 : Bool → P β} (h : JP pre Nil m1 m2 m3)
    (hf : ∀ b, JP [] Post2 (f1 b) (f2 b) (f3 b)) :
    JP pre Post2 (m1 >>= f1) (m2 >>= f2) (m3 >>= f3) := by
  refine bind h fun a a' ha => ?_
  have ha : a = a' := ha
  subst ha
  exact hf a

theorem bindUnit {m1 m2 m3 : P Unit} {f1 f2 f3 : Unit → P β} (h : JP pre Nil m1 m2 m3)
    (hf : JP [] Post2 (f1 ()) (f2 ()) (f3 ())) : JP pre Post2 (m1 >>= f1) (m2 >>= f2) (m3 >>= f3) :=
  bind h fun _ _ _ => hf

theorem bindOpt {m1 m2 m3 : P (Option α)} {f1 f2 f3 : Option α → P β} (h : JP pre Nil m1 m2 m3)
    (hn : JP [] Post2 (f1 none) (f2 none) (f3 none))
    (hf : ∀ a a', Rel a a' → JP [] Post2 (f1 (some a)) (f2 (some a)) (f3 (some a'))) :
    JP pre Post2 (m1 >>= f1) (m2 >>= f2) (m3 >>= f3) := by
  refine bind h fun a a' ha => ?_
  cases a <;> cases a' <;> first
    | (cases ha; done)
    | exact hn
    | exact hf _ _ (Rel.some_iff.1 ha)

theorem bindOptTok {m1 m2 m3 : P (Option Token)} {f1 f2 f3 : Option Token → P β} (h : JP pre Nil m1 m2 m3)
    (hn : JP [] Post2 (f1 none) (f2 none) (f3 none))
    (hf : ∀ l l' nl v,
      JP [] Post2 (f1 (some ⟨l, nl, v⟩)) (f2 (some ⟨l, nl, v⟩)) (f3 (some ⟨l', nl, v⟩))) :
    JP pre Post2 (m1 >>= f1) (m2 >>= f2) (m3 >>= f3) := by
  refine bindOpt h hn fun a a' ha => ?_
  obtain ⟨l, nl, v⟩ := a
  obtain ⟨l', nl', v'⟩ := a'
  have ha : Token.mk .zero nl v = ⟨.zero, nl', v'⟩ := ha
  injection ha with _ h1 h2
  subst h1; subst h2
  exact hf l l' nl v

theorem ite {p p' : Prop} [d1 : Decidable p] [d2 : Decidable p] [d3 : Decidable p'] (h : p ↔ p')
    {a1 a2 a3 b1 b2 b3 : P α} (ha : JP pre Post a1 a2 a3) (hb : JP pre Post b1 b2 b3) :
    JP pre Post (@_root_.ite _ p d1 a1 b1) (@_root_.ite _ p d2 a2 b2)
      (@_root_.ite _ p' d3 a3 b3) := by
  by_cases hp : p
  · rw [if_pos hp, if_pos hp, if_pos (h.1 hp)]; exact ha
  · rw [if_neg hp, if_neg hp, if_neg (fun x => hp (h.2 x))]; exact hb

theorem hasArgSameLineP (hpre : pre.length ≤ 1) :
    JP pre (fun _ g => g = pre) P.hasArgSameLine P.hasArgSameLine P.hasArgSameLine := by
  unfold P.hasArgSameLine
  exact bindPeek hpre fun _ _ _ _ => pureP rfl rfl (List.suffix_refl _)

theorem hasArgSameLine : J P.hasArgSameLine P.hasArgSameLine P.hasArgSameLine :=
  hasArgSameLineP (Nat.zero_le _)

/-- Looking for an argument on the same line. -/
theorem bindHasArg {f1 f2 f3 : Bool → P β} (hpre : pre.length ≤ 1)
    (hf : ∀ b, JP pre Post2 (f1 b) (f2 b) (f3 b)) :
    JP pre Post2 (P.hasArgSameLine >>= f1) (P.hasArgSameLine >>= f2) (P.hasArgSameLine >>= f3) :=
  bindKeep (hasArgSameLineP hpre) fun a a' ha => by
    have ha : a = a' := ha
    subst ha
    exact hf a

/-- The error is about one of the tokens read last. -/
macro "points" : tactic => `(tactic| first
  | exact trivial
  | (simp [PError.Points, lastTwo]; done))

/-- The conditions of the two sides agree. -/
syntax "laycond" : tactic
macro_rules | `(tactic| laycond) => `(tactic| first
  | exact Iff.rfl
  | (simp only [firstBinding_v, followStatementList_v, expressionContinuation_v]; done))

/-- Registered facts. -/
syntax "layleaf" : tactic
macro_rules | `(tactic| layleaf) => `(tactic| fail)
macro_rules | `(tactic| layleaf) => `(tactic| with_reducible first
  | exact read | exact readOp | exact peek | exact peekOp | exact skip | exact rereadToken
  | exact repeekToken | exact posn | exact panic
  | exact RecJ.assign ‹RecJ _ _› | exact RecJ.item ‹RecJ _ _› _)
macro_rules | `(tactic| layleaf) => `(tactic| first
  | ((with_reducible refine pure ?_); focus rel)
  | ((with_reducible refine throw ?_ ?_); (focus rel); (focus points))
  | ((with_reducible refine unread ?_); focus rel))

/-- Functions that return the token they read. -/
syntax "layread" : tactic
macro_rules | `(tactic| layread) => `(tactic| with_reducible first
  | exact readT | exact readOpT | exact rereadTokenT)

/-- Combinators. -/
syntax "laycomb" : tactic
macro_rules | `(tactic| laycomb) => `(tactic| fail)

/-- Follow the structure of a parser function. -/
macro "lay" : tactic => `(tactic| repeat' first
  | layleaf
  | (with_reducible refine get fun s s' hs => ?_
     simp only [← Same.ctx ‹Same _ _›, ← Same.goal ‹Same _ _›, ← Same.validate ‹Same _ _›])
  | ((with_reducible refine JP.weaken ?_); layleaf)
  | (with_reducible refine bindPosn fun _ _ => ?_)
  | ((with_reducible refine bindPeek ?_ fun _ _ _ _ => ?_); focus (first | decide | exact Nat.le_refl _))
  | ((with_reducible refine bindPeekOp ?_ fun _ _ _ _ => ?_); focus (first | decide | exact Nat.le_refl _))
  | ((with_reducible refine bindHasArg ?_ fun _ => ?_); focus (first | decide | exact Nat.le_refl _))
  | ((with_reducible refine bindRead ?_ fun _ _ _ _ => ?_); focus layread)
  | (with_reducible refine bindTok ?_ fun _ _ _ _ => ?_)
  | (with_reducible refine bindBool ?_ fun _ => ?_)
  | (with_reducible refine bindUnit ?_ ?_)
  | (with_reducible refine bindOptTok ?_ ?_ fun _ _ _ _ => ?_)
  | (with_reducible refine bindOpt ?_ ?_ fun _ _ _ => ?_)
  | (with_reducible refine bind ?_ fun _ _ _ => ?_)
  | laycomb
  | ((with_reducible refine JP.weaken ?_); laycomb)
  | exact modify (fun s s' h =>
      ⟨by first | rfl | exact h.goal, h.validate, by simp only [h.ctx], h.deferred, h.lookahead⟩) (fun _ => rfl) fun _ => rfl
  | ((with_reducible refine ite ?_ ?_ ?_); focus laycond)
  | dsimp only
  | simp only [firstBinding_v, followStatementList_v, expressionContinuation_v, labelType_v]
  | split
  | (with_reducible show Rel _ _; rel)
  | with_reducible assumption
  | with_reducible (refine JP.weaken ?_; assumption))

theorem expect {v : TokenData} : J (P.expect v) (P.expect v) (P.expect v) := by
  unfold P.expect; lay

theorem rereadT {v : TokenData} : JP [] Tok (P.reread v) (P.reread v) (P.reread v) := by
  unfold P.reread
  exact bindTok repeekToken fun _ _ _ _ => ite Iff.rfl panic rereadTokenT

theorem reread {v : TokenData} : J (P.reread v) (P.reread v) (P.reread v) := forget rereadT

macro_rules | `(tactic| layread) => `(tactic| with_reducible exact rereadT)

theorem matchesToken {v : TokenData} :
    J (P.matchesToken v) (P.matchesToken v) (P.matchesToken v) := by
  unfold P.matchesToken; lay

theorem «matches» {v : TokenData} : J (P.«matches» v) (P.«matches» v) (P.«matches» v) := by
  unfold P.«matches»; lay

theorem matchesOp {v : TokenData} : J (P.matchesOp v) (P.matchesOp v) (P.matchesOp v) := by
  unfold P.matchesOp; lay

theorem unexpected : JP pre Post (P.unexpected : P α) P.unexpected P.unexpected := by
  unfold P.unexpected; lay

theorem matchesOpP {v : TokenData} (hpre : pre.length ≤ 1) :
    JP pre (fun b g => if b then ∃ c, g = pre ++ [c] else g = pre) (P.matchesOp v) (P.matchesOp v)
      (P.matchesOp v) := by
  unfold P.matchesOp
  refine bindP (readTokenP true hpre) (fun t => ⟨_, rfl⟩) fun a a' ha g hg => ?_
  subst hg
  obtain ⟨l, l', nl, v, rfl, rfl⟩ := ha.tok
  dsimp only
  refine ite Iff.rfl (bindP (unreadP ha) (fun _ => ⟨_, rfl⟩) fun _ _ _ g hg => ?_) ?_
  · subst hg
    exact pureP rfl rfl (List.suffix_refl _)
  · exact pureP rfl ⟨_, rfl⟩ (List.suffix_refl _)

macro_rules | `(tactic| layleaf) => `(tactic| with_reducible first
  | exact expect | exact reread | exact matchesToken | exact «matches» | exact matchesOp
  | exact unexpected | exact hasArgSameLine)

theorem span [Tracking α] [TrackBlur α] {p1 p2 p3 : P α} (h : J p1 p2 p3) :
    J (P.span p1) (P.span p2) (P.span p3) := by
  unfold P.span
  refine bind posn fun _ _ _ => bind h fun _ _ ha => bind posn fun _ _ _ => pure ?_
  exact TrackBlur.setLoc _ _ _ _ ha

theorem vecSpan {c : Cat} {v v' : List (Ast c)} (h : Rel v v') :
    J (P.vecSpan v) (P.vecSpan v) (P.vecSpan v') := by
  unfold P.vecSpan
  have h1 : v.head?.map Ast.blur = v'.head?.map Ast.blur := by
    rw [← List.head?_map, ← List.head?_map]; exact congrArg List.head? h
  have h2 : v.getLast?.map Ast.blur = v'.getLast?.map Ast.blur := by
    rw [← List.getLast?_map, ← List.getLast?_map]; exact congrArg List.getLast? h
  cases ha : v.head? <;> cases hb : v'.head? <;> rw [ha, hb] at h1 <;>
    first
    | (cases h1; done)
    | (cases hc : v.getLast? <;> cases hd : v'.getLast? <;> rw [hc, hd] at h2 <;> first
        | (cases h2; done)
        | lay)

theorem endWithAutoSemi [Tracking α] [TrackBlur α] {start start' : Posn} {nl : P.Newline}
    {cons cons' : Semi → α} (h : ∀ s s', Semi.blur s = Semi.blur s' → Rel (cons s) (cons' s')) :
    J (P.endWithAutoSemi start nl cons) (P.endWithAutoSemi start nl cons)
      (P.endWithAutoSemi start' nl cons') := by
  unfold P.endWithAutoSemi
  refine bind posn fun _ _ _ => bindTok peek fun l l' n v => ?_
  dsimp only
  split
  · refine bind reread fun _ _ _ => bind posn fun _ _ _ => pure ?_
    exact TrackBlur.setLoc _ _ _ _ (h _ _ rfl)
  · exact pure (TrackBlur.setLoc _ _ _ _ (h _ _ rfl))
  · exact pure (TrackBlur.setLoc _ _ _ _ (h _ _ rfl))
  · split
    · lay
    · exact pure (TrackBlur.setLoc _ _ _ _ (h _ _ rfl))

theorem allowIn {b : Bool} {p1 p2 p3 : P α} (h : J p1 p2 p3) :
    J (P.allowIn b p1) (P.allowIn b p2) (P.allowIn b p3) := by
  unfold P.allowIn
  lay

theorem rel_names {ls ls' : List Id} (h : Rel ls ls') : ls.map Id.name = ls'.map Id.name := by
  have h : ls.map Id.blur = ls'.map Id.blur := h
  have : ∀ ls : List Id, ls.map Id.name = (ls.map Id.blur).map Id.name := by intro ls; rw [List.map_map]; rfl
  rw [this, h, ← this]

theorem rel_label {ls ls' : List Id} (h : Rel ls ls') : ∀ {b b' : Stmt}, b.blur = b'.blur →
    (ls.foldl (fun body i => Ast.sLabel (spanLoc i.location body.loc) i body) b).blur =
    (ls'.foldl (fun body i => Ast.sLabel (spanLoc i.location body.loc) i body) b').blur := by
  induction ls generalizing ls' with
  | nil =>
    cases ls' with
    | nil => exact id
    | cons i is => cases h
  | cons i is ih =>
    cases ls' with
    | nil => cases h
    | cons i' is' =>
      intro b b' hb
      have h : i.blur :: is.map Id.blur = i'.blur :: is'.map Id.blur := h
      injection h with h1 h2
      refine ih h2 ?_
      simp [h1, hb]

theorem withLabels {ls ls' : List Id} {ty : LabelType} {p1 p2 p3 : P Stmt} (hl : Rel ls ls')
    (h : J p1 p2 p3) :
    J (P.withLabels ls ty p1) (P.withLabels ls ty p2) (P.withLabels ls' ty p3) := by
  have e1 : ∀ (ls : List Id) (t : Labels),
      ls.foldl (fun ls i => ls.insert i.name ty) t = (ls.map Id.name).foldl (fun ls n => ls.insert n ty) t := by
    intro ls t; rw [List.foldl_map]
  have e2 : ∀ (ls : List Id) (t : Labels),
      ls.foldl (fun ls i => Labels.remove ls i.name) t = (ls.map Id.name).foldl (fun ls n => Labels.remove ls n) t := by
    intro ls t; rw [List.foldl_map]
  unfold P.withLabels
  simp only [e1, e2]
  rw [rel_names hl]
  refine bindUnit (modify (fun s s' h => ?_) (fun _ => rfl) fun _ => rfl) ?_
  · exact ⟨h.goal, h.validate, by rw [h.ctx], h.deferred, h.lookahead⟩
  refine bind h fun b b' hb => bindUnit (modify (fun s s' h => ?_) (fun _ => rfl) fun _ => rfl) ?_
  · exact ⟨h.goal, h.validate, by rw [h.ctx], h.deferred, h.lookahead⟩
  refine pure (rel_label ?_ hb)
  show ls.reverse.map Blur.blur = ls'.reverse.map Blur.blur
  rw [List.map_reverse, List.map_reverse]
  exact congrArg List.reverse hl

theorem deferP {c c' : Check} (h : Rel c c') :
    JP pre (fun _ g => g = pre) (P.modify fun s => { s with deferred := s.deferred ++ [c] })
      (P.modify fun s => { s with deferred := s.deferred ++ [c] })
      (P.modify fun s => { s with deferred := s.deferred ++ [c'] }) := by
  refine modifyP (fun s s' hs => ?_) (fun _ => rfl) fun _ => rfl
  exact ⟨hs.goal, hs.validate, hs.ctx, hs.deferred.snoc h, hs.lookahead⟩

/-- The error of the check points at one of the last two of the tokens. -/
def _root_.Esprit.Check.Points (ts : List Token) : Check → Prop
  | .strict e | .module e => e.Points ts

theorem strictCheckP {c c' : Option Check} (h : Rel c c') (hp : ∀ k, c = some k → k.Points pre) :
    JP pre (fun _ g => g = pre) (P.strictCheck (Pure.pure c)) (P.strictCheck (Pure.pure c))
      (P.strictCheck (Pure.pure c')) := by
  unfold P.strictCheck
  refine get fun s s' hs => ?_
  simp only [← hs.ctx, ← hs.goal, ← hs.validate]
  refine ite Iff.rfl ?_ (pureP rfl rfl (List.suffix_refl _))
  cases c <;> cases c' <;> first | (cases h; done) | skip
  · exact pureP rfl rfl (List.suffix_refl _)
  · rename_i c c'
    have hc : c.blur = c'.blur := Rel.some_iff.1 h
    replace hp := hp c rfl
    cases c <;> cases c' <;> first
      | (cases hc; done)
      | skip
    · rename_i e e'
      injection hc with hc
      show JP _ _ (if _ then P.throw e else P.modify _) (if _ then P.throw e else P.modify _)
        (if _ then P.throw e' else P.modify _)
      exact ite Iff.rfl (throw hc hp) (deferP (congrArg Check.strict hc))
    · rename_i e e'
      injection hc with hc
      show JP _ _ (if _ then P.throw e else if _ then P.modify _ else Pure.pure ())
        (if _ then P.throw e else if _ then P.modify _ else Pure.pure ())
        (if _ then P.throw e' else if _ then P.modify _ else Pure.pure ())
      exact ite Iff.rfl (throw hc hp) (ite Iff.rfl (deferP (congrArg Check.module hc))
        (pureP rfl rfl (List.suffix_refl _)))

theorem strictCheck_panic {p : Panic} : JP pre (fun _ g => g = pre) (P.strictCheck (P.panic p))
    (P.strictCheck (P.panic p)) (P.strictCheck (P.panic p)) := by
  unfold P.strictCheck
  refine get fun s s' hs => ?_
  simp only [← hs.ctx, ← hs.goal, ← hs.validate]
  exact ite Iff.rfl (panic (Post := fun _ g => g = pre)) (pureP rfl rfl (List.suffix_refl _))

macro_rules | `(tactic| layleaf) => `(tactic| ((with_reducible refine vecSpan ?_); focus rel))
macro_rules | `(tactic| layleaf) => `(tactic|
  ((with_reducible refine endWithAutoSemi fun _ _ _ => ?_); focus rel))
macro_rules | `(tactic| laycomb) => `(tactic| with_reducible first
  | refine span ?_ | refine allowIn ?_ | refine withLabels ?_ ?_
  | refine loop ?_ fun _ _ _ => ?_)

end J

end Esprit
