import Verif.Proofs.BlurCover
import Verif.Spec.Prompt

/-!
The parser sees only what the lexer returns.  `Suff m m'` says that the run of `m`
from a state `s` reads only the tokens in certain modes `ops`: in any state that
agrees with `s` on these tokens, up to positions, `m'` behaves alike.  `Cong m m'` says
that `m` and `m'` behave alike in states that have the same unread source.
-/

set_option linter.unusedSectionVars false

namespace Esprit

/-- Types whose values can be moved to the origin. -/
class Blur (α : Type) where
  blur : α → α

/-- The same up to positions. -/
def Rel {α : Type} [Blur α] (a a' : α) : Prop := Blur.blur a = Blur.blur a'

instance : Blur Unit := ⟨fun x => x⟩
instance : Blur Bool := ⟨fun x => x⟩
instance : Blur Posn := ⟨fun _ => .origin⟩
instance : Blur Span := ⟨fun _ => .zero⟩
instance : Blur Token := ⟨Token.blur⟩
instance : Blur Id := ⟨Id.blur⟩
instance : Blur DotKey := ⟨DotKey.blur⟩
instance : Blur PropKey := ⟨PropKey.blur⟩
instance {T : Type} : Blur (Op T) := ⟨Op.blur⟩
instance : Blur Dir := ⟨Dir.blur⟩
instance {c : Cat} : Blur (Ast c) := ⟨Ast.blur⟩
instance : Blur Check := ⟨Check.blur⟩
instance : Blur Program := ⟨Program.blur⟩

variable {α β σ : Type}

instance [Blur α] : Blur (List α) := ⟨List.map Blur.blur⟩
instance [Blur α] : Blur (Option α) := ⟨Option.map Blur.blur⟩
instance [Blur α] [Blur β] : Blur (α × β) := ⟨fun x => (Blur.blur x.1, Blur.blur x.2)⟩
instance [Blur α] [Blur β] : Blur (α ⊕ β) := ⟨Sum.map Blur.blur Blur.blur⟩

theorem Rel.refl [Blur α] (a : α) : Rel a a := Eq.refl _
theorem Rel.symm [Blur α] {a b : α} (h : Rel a b) : Rel b a := Eq.symm h
theorem Rel.trans [Blur α] {a b c : α} (h : Rel a b) (h' : Rel b c) : Rel a c := Eq.trans h h'

theorem Rel.cons [Blur α] {a a' : α} {as as' : List α} (h : Rel a a') (h' : Rel as as') :
    Rel (a :: as) (a' :: as') := by
  show Blur.blur a :: as.map Blur.blur = Blur.blur a' :: as'.map Blur.blur
  rw [show Blur.blur a = Blur.blur a' from h, show as.map Blur.blur = as'.map Blur.blur from h']

theorem Rel.append [Blur α] {as as' bs bs' : List α} (h : Rel as as') (h' : Rel bs bs') :
    Rel (as ++ bs) (as' ++ bs') := by
  show (as ++ bs).map Blur.blur = (as' ++ bs').map Blur.blur
  rw [List.map_append, List.map_append, show as.map Blur.blur = as'.map Blur.blur from h,
    show bs.map Blur.blur = bs'.map Blur.blur from h']

theorem Rel.snoc [Blur α] {a a' : α} {as as' : List α} (h' : Rel as as') (h : Rel a a') :
    Rel (as ++ [a]) (as' ++ [a']) := h'.append (h.cons rfl)

theorem Rel.some_iff [Blur α] {a a' : α} : Rel (some a) (some a') ↔ Rel a a' :=
  ⟨fun h => by injection h, fun h => congrArg some h⟩

variable [Env]

/-! ### Lexers -/

/-- The lexer without its buffered tokens. -/
def Lexer.base (l : Lexer) : Lexer := { l with lookahead := [] }

/-- The unread sources have the same tokens in the modes `ops`. -/
def Alike (ops : List Bool) (l l' : Lexer) : Prop :=
  ∀ i, SameRead (l.base.readAll (ops.take i)) (l'.base.readAll (ops.take i))

/-- Results of reading one token, after which the tokens in the modes `ops` are the
same. -/
def StepRel (ops : List Bool) :
    Res LexError (Token × Lexer) → Res LexError (Token × Lexer) → Prop
  | .ok (t, m), .ok (t', m') => t.blur = t'.blur ∧ Alike ops m m'
  | .err e, .err e' => e = e'
  | .panic p, .panic p' => p = p'
  | _, _ => False

theorem readNextToken_base (op : Bool) (l : Lexer) :
    l.base.readNextToken op = (l.readNextToken op).bind fun (t, m) => .ok (t, m.base) := by
  unfold Lexer.readNextToken Lexer.base
  cases L.triviaLoop (l.reader.rest.length + 1) l.emptyLine false l.reader with
  | ok v =>
    obtain ⟨⟨nl, e⟩, r⟩ := v
    simp only [Res.bind]
    cases L.readTokenBody op r <;> rfl
  | err e => rfl
  | panic p => rfl
  | fuel => rfl

theorem readNextToken_la {op : Bool} {l m : Lexer} {t : Token}
    (h : l.readNextToken op = .ok (t, m)) : m.lookahead = l.lookahead := by
  unfold Lexer.readNextToken at h
  cases hv : L.triviaLoop (l.reader.rest.length + 1) l.emptyLine false l.reader with
  | ok v =>
    obtain ⟨⟨nl, e⟩, r⟩ := v
    rw [hv] at h
    simp only [Res.bind] at h
    cases hb : L.readTokenBody op r with
    | ok w => rw [hb] at h; cases h; rfl
    | err e => rw [hb] at h; cases h
    | panic p => rw [hb] at h; cases h
    | fuel => rw [hb] at h; cases h
  | err e => rw [hv] at h; cases h
  | panic p => rw [hv] at h; cases h
  | fuel => rw [hv] at h; cases h

theorem base_lookahead (l : Lexer) : l.base.lookahead = [] := rfl

theorem readAll_base (op : Bool) (ops : List Bool) (l : Lexer) :
    l.base.readAll (op :: ops) = (l.readNextToken op).bind fun (t, m) =>
      (m.base.readAll ops).bind fun (ts, l2) => .ok (t :: ts, l2) := by
  show (Lexer.readToken op l.base).bind _ = _
  unfold Lexer.readToken
  rw [base_lookahead]
  simp only [readNextToken_base]
  cases l.readNextToken op <;> rfl

theorem Alike.step {op : Bool} {ops : List Bool} {l l' : Lexer} (h : Alike (op :: ops) l l') :
    StepRel ops (l.readNextToken op) (l'.readNextToken op) := by
  have h1 := h 1
  simp only [List.take_succ_cons, List.take_zero, readAll_base] at h1
  have hn : ∀ i, SameRead ((l.readNextToken op).bind fun (t, m) =>
      (m.base.readAll (ops.take i)).bind fun (ts, l2) => .ok (t :: ts, l2))
      ((l'.readNextToken op).bind fun (t, m) =>
      (m.base.readAll (ops.take i)).bind fun (ts, l2) => .ok (t :: ts, l2)) := fun i => by
    have := h (i + 1)
    simpa only [List.take_succ_cons, readAll_base] using this
  cases ha : l.readNextToken op with
  | ok v =>
    obtain ⟨t, m⟩ := v
    cases hb : l'.readNextToken op with
    | ok w =>
      obtain ⟨t', m'⟩ := w
      rw [ha, hb] at h1
      have h1 : [t].map Token.blur = [t'].map Token.blur := h1
      injection h1 with h1 _
      refine ⟨h1, fun i => ?_⟩
      have := hn i
      rw [ha, hb] at this
      simp only [Res.bind] at this
      cases hx : m.base.readAll (ops.take i) with
      | ok x =>
        cases hy : m'.base.readAll (ops.take i) with
        | ok y =>
          rw [hx, hy] at this
          have this : (t :: x.1).map Token.blur = (t' :: y.1).map Token.blur := this
          injection this
        | err e => rw [hx, hy] at this; exact this.elim
        | panic e => rw [hx, hy] at this; exact this.elim
        | fuel => rw [hx, hy] at this; exact this.elim
      | err e =>
        cases hy : m'.base.readAll (ops.take i) with
        | ok y => rw [hx, hy] at this; exact this.elim
        | err e => rw [hx, hy] at this; exact this
        | panic e => rw [hx, hy] at this; exact this.elim
        | fuel => rw [hx, hy] at this; exact this.elim
      | panic e =>
        cases hy : m'.base.readAll (ops.take i) with
        | ok y => rw [hx, hy] at this; exact this.elim
        | err e => rw [hx, hy] at this; exact this.elim
        | panic e => rw [hx, hy] at this; exact this
        | fuel => rw [hx, hy] at this; exact this.elim
      | fuel =>
        cases hy : m'.base.readAll (ops.take i) with
        | ok y => rw [hx, hy] at this; exact this.elim
        | err e => rw [hx, hy] at this; exact this.elim
        | panic e => rw [hx, hy] at this; exact this.elim
        | fuel => rw [hx, hy] at this; exact this.elim
    | err e => rw [ha, hb] at h1; exact h1.elim
    | panic e => rw [ha, hb] at h1; exact h1.elim
    | fuel => rw [ha, hb] at h1; exact h1.elim
  | err e =>
    cases hb : l'.readNextToken op with
    | ok y => rw [ha, hb] at h1; exact h1.elim
    | err e => rw [ha, hb] at h1; exact h1
    | panic e => rw [ha, hb] at h1; exact h1.elim
    | fuel => rw [ha, hb] at h1; exact h1.elim
  | panic e =>
    cases hb : l'.readNextToken op with
    | ok y => rw [ha, hb] at h1; exact h1.elim
    | err e => rw [ha, hb] at h1; exact h1.elim
    | panic e => rw [ha, hb] at h1; exact h1
    | fuel => rw [ha, hb] at h1; exact h1.elim
  | fuel =>
    cases hb : l'.readNextToken op with
    | ok y => rw [ha, hb] at h1; exact h1.elim
    | err e => rw [ha, hb] at h1; exact h1.elim
    | panic e => rw [ha, hb] at h1; exact h1.elim
    | fuel => rw [ha, hb] at h1; exact h1.elim

/-! ### States -/

/-- States that agree up to positions, except for the unread source. -/
structure Same (s s' : PState) : Prop where
  goal : s.goal = s'.goal
  validate : s.validate = s'.validate
  ctx : s.ctx = s'.ctx
  deferred : Rel s.deferred s'.deferred
  lookahead : Rel s.lexer.lookahead s'.lexer.lookahead

/-- States that agree up to positions and have the same unread source. -/
structure St0 (s s' : PState) : Prop extends Same s s' where
  reader : s.lexer.reader = s'.lexer.reader
  emptyLine : s.lexer.emptyLine = s'.lexer.emptyLine

/-- States that agree up to positions, and on the tokens of the unread source in the
modes `ops`. -/
structure StR (ops : List Bool) (s s' : PState) : Prop extends Same s s' where
  alike : Alike ops s.lexer s'.lexer

theorem Same.refl (s : PState) : Same s s := ⟨rfl, rfl, rfl, rfl, rfl⟩

theorem Same.symm {s t : PState} (h : Same s t) : Same t s :=
  ⟨h.goal.symm, h.validate.symm, h.ctx.symm, h.deferred.symm, h.lookahead.symm⟩

theorem Same.trans {s t u : PState} (h : Same s t) (h' : Same t u) : Same s u :=
  ⟨h.goal.trans h'.goal, h.validate.trans h'.validate, h.ctx.trans h'.ctx,
    h.deferred.trans h'.deferred, h.lookahead.trans h'.lookahead⟩

theorem St0.refl (s : PState) : St0 s s := ⟨.refl s, rfl, rfl⟩

theorem St0.symm {s t : PState} (h : St0 s t) : St0 t s :=
  ⟨h.toSame.symm, h.reader.symm, h.emptyLine.symm⟩

theorem St0.trans {s t u : PState} (h : St0 s t) (h' : St0 t u) : St0 s u :=
  ⟨h.toSame.trans h'.toSame, h.reader.trans h'.reader, h.emptyLine.trans h'.emptyLine⟩

theorem Lexer.base_eq {l l' : Lexer} (h : l.reader = l'.reader) (h' : l.emptyLine = l'.emptyLine) :
    l.base = l'.base := by
  unfold Lexer.base
  rw [h, h']

theorem StR.trans0 {ops : List Bool} {s t u : PState} (h : StR ops s t) (h' : St0 t u) :
    StR ops s u := by
  refine ⟨h.toSame.trans h'.toSame, ?_⟩
  have := h.alike
  unfold Alike at this ⊢
  rw [← Lexer.base_eq h'.reader h'.emptyLine]
  exact this

/-! ### Results -/

variable [Blur α] [Blur β] [Blur σ]

/-- Results of running on the same unread source. -/
def ResC : Res PError (α × PState) → Res PError (α × PState) → Prop
  | .ok (a, s), .ok (a', s') => Rel a a' ∧ St0 s s'
  | .err e, .err e' => e.blur = e'.blur
  | .panic p, .panic p' => p = p'
  | .fuel, .fuel => True
  | _, _ => False

/-- Results of running on sources that afterwards agree on the tokens in the modes
`rest`, unless a budget is exhausted. -/
def ResS (rest : List Bool) : Res PError (α × PState) → Res PError (α × PState) → Prop
  | .fuel, _ => True
  | _, .fuel => True
  | .ok (a, s), .ok (a', s') => Rel a a' ∧ StR rest s s'
  | .err e, .err e' => e.blur = e'.blur
  | .panic p, .panic p' => p = p'
  | _, _ => False

theorem ResC.symm {x y : Res PError (α × PState)} (h : ResC x y) : ResC y x := by
  cases x <;> cases y <;> first
    | exact (h : False).elim
    | exact ⟨h.1.symm, h.2.symm⟩
    | exact Eq.symm h
    | trivial

theorem ResC.trans {x y z : Res PError (α × PState)} (h : ResC x y) (h' : ResC y z) : ResC x z := by
  cases x <;> cases y <;> first
    | exact (h : False).elim
    | (cases z <;> first
        | exact (h' : False).elim
        | exact ⟨h.1.trans h'.1, h.2.trans h'.2⟩
        | exact Eq.trans h h'
        | trivial)

theorem ResS.transC {rest : List Bool} {x y z : Res PError (α × PState)} (h : ResS rest x y)
    (h' : ResC y z) : ResS rest x z := by
  cases x <;> cases y <;> first
    | exact (h : False).elim
    | (cases z <;> first
        | exact (h' : False).elim
        | trivial
        | exact ⟨h.1.trans h'.1, h.2.trans0 h'.2⟩
        | exact Eq.trans h h')

/-- The runs agree on the same unread source. -/
def Cong (m m' : P α) : Prop := ∀ s s', St0 s s' → ResC (m s) (m' s')

/-- As `PError.At`, without the claim that the label has a location. -/
def PError.Points (ts : List Token) : PError → Prop
  | .unexpectedToken t | .failedASI t | .illegalBreak t | .illegalContinue t
  | .duplicateDefault t | .strictWith t | .throwArgument t | .orphanTry t => t ∈ lastTwo ts
  | .invalidLabel i | .invalidLabelType i =>
      ∀ l, i.location = some l → ∃ t ∈ lastTwo ts, t.location = l
  | .contextualKeyword l _ | .illegalStrictBinding l _ => ∃ t ∈ lastTwo ts, t.location = l
  | .lexError _ => False
  | _ => True

/-- Whether the errors are to be prompt: `program` performs the checks it has deferred only
when it meets an `import` or an `export`. -/
class Prompt where
  prompt : Prop

variable [Prompt]

/-- The run that ends with `x` reads exactly the tokens in the modes `ops`.  The tokens
`pre` were read just before it; after it, `Post` describes the tokens read last, not
counting those that are buffered.  If errors are to be prompt, an error points at one of
the last two tokens. -/
def Tight (pre : List Token) (Post : α → List Token → Prop) (s : PState) (ops : List Bool) :
    Res PError (α × PState) → Prop
  | .ok (a, t) => ∃ ts h, s.lexer.base.readAll ops = .ok (ts, t.lexer.base) ∧ Post a h ∧
      h ++ t.lexer.lookahead <:+ pre ++ s.lexer.lookahead ++ ts ∧
      (h ++ t.lexer.lookahead).length ≤ 2
  | .err e => (∃ ts l, s.lexer.base.readAll ops = .ok (ts, l) ∧
        (Prompt.prompt → e.Points (pre ++ s.lexer.lookahead ++ ts))) ∨
      ∃ le op ops', e = .lexError le ∧ ops = ops' ++ [op] ∧ s.lexer.base.readAll ops = .err le ∧
        ∃ ts l, s.lexer.base.readAll ops' = .ok (ts, l)
  | .panic _ | .fuel => True

/-- The run of `m` from `s` reads exactly the tokens in certain modes, and nothing else of
the source matters. -/
def Suff (pre : List Token) (Post : α → List Token → Prop) (m m' : P α) : Prop :=
  ∀ s, (pre ++ s.lexer.lookahead).length ≤ 2 → ∃ ops, Tight pre Post s ops (m s) ∧
    ∀ rest s', StR (ops ++ rest) s s' → ResS rest (m s) (m' s')

theorem Cong.symm {m m' : P α} (h : Cong m m') : Cong m' m :=
  fun s s' hs => (h s' s hs.symm).symm

theorem Cong.trans {m m' m'' : P α} (h : Cong m m') (h' : Cong m' m'') : Cong m m'' :=
  fun s s' hs => (h s s' hs).trans (h' s' s' (.refl _))

/-- `m1` and `m2` read the same tokens, and `m2` and `m3` behave alike. -/
structure JP (pre : List Token) (Post : α → List Token → Prop) (m1 m2 m3 : P α) : Prop where
  suff : Suff pre Post m1 m2
  cong : Cong m2 m3

/-- Nothing is known of the tokens read last. -/
abbrev Nil : α → List Token → Prop := fun _ h => h = []

/-- The token is the one read last. -/
abbrev Tok : Token → List Token → Prop := fun t h => h = [t]

/-- Nothing is known of the tokens read before and after. -/
abbrev J (m1 m2 m3 : P α) : Prop := JP [] Nil m1 m2 m3

theorem lastTwo_eq {ts : List Token} (h : ts.length ≤ 2) : lastTwo ts = ts := by
  unfold lastTwo
  rw [show ts.length - 2 = 0 by omega, List.drop_zero]

theorem lastTwo_suffix {ts us : List Token} (h : ts <:+ us) {t : Token} (ht : t ∈ lastTwo ts) :
    t ∈ lastTwo us := by
  obtain ⟨vs, rfl⟩ := h
  unfold lastTwo at ht ⊢
  rw [List.drop_append, List.mem_append]
  refine .inr ?_
  rw [List.length_append]
  have : vs.length + ts.length - 2 - vs.length ≤ ts.length - 2 := by omega
  obtain ⟨d, hd⟩ := Nat.exists_eq_add_of_le this
  rw [hd, ← List.drop_drop] at ht
  exact List.mem_of_mem_drop ht

theorem lastTwo_append {ts us : List Token} (h : (ts ++ us).length ≤ 2) {t : Token}
    (ht : t ∈ lastTwo ts) : t ∈ lastTwo (ts ++ us) := by
  rw [lastTwo_eq h]
  exact List.mem_append_left _ (List.mem_of_mem_drop ht)

theorem PError.Points.mono {ts us : List Token} {e : PError}
    (h : ∀ t, t ∈ lastTwo ts → t ∈ lastTwo us) (he : e.Points ts) : e.Points us := by
  cases e <;> first
    | exact he
    | exact h _ he
    | (obtain ⟨t, h1, h2⟩ := he; exact ⟨t, h _ h1, h2⟩)
    | (intro l hl; obtain ⟨t, h1, h2⟩ := he l hl; exact ⟨t, h _ h1, h2⟩)

theorem Lexer.readAll_app (l : Lexer) (ops ops' : List Bool) :
    l.readAll (ops ++ ops') = (l.readAll ops).bind fun (ts, m) =>
      (m.readAll ops').bind fun (us, n) => .ok (ts ++ us, n) := by
  induction ops generalizing l with
  | nil =>
    show _ = (l.readAll ops').bind _
    rw [List.nil_append]
    cases l.readAll ops' <;> rfl
  | cons op ops ih =>
    simp only [List.cons_append, Lexer.readAll]
    cases l.readToken op with
    | ok v =>
      obtain ⟨t, m⟩ := v
      simp only [Res.bind, ih]
      cases m.readAll ops with
      | ok w =>
        obtain ⟨ts, n⟩ := w
        simp only
        cases n.readAll ops' <;> rfl
      | err e => rfl
      | panic e => rfl
      | fuel => rfl
    | err e => rfl
    | panic e => rfl
    | fuel => rfl

theorem Lexer.readAll_app_ok {l m : Lexer} {ops ops' : List Bool} {ts : List Token}
    (h : l.readAll ops = .ok (ts, m)) :
    l.readAll (ops ++ ops') = (m.readAll ops').bind fun (us, n) => .ok (ts ++ us, n) := by
  rw [Lexer.readAll_app, h]
  rfl

/-- A run that begins with the tokens `ts`. -/
theorem Tight.after {pre h : List Token} {Post : α → List Token → Prop} {s t : PState}
    {ops ops' : List Bool} {ts : List Token} {x : Res PError (α × PState)}
    (hr : s.lexer.base.readAll ops = .ok (ts, t.lexer.base))
    (hs : h ++ t.lexer.lookahead <:+ pre ++ s.lexer.lookahead ++ ts)
    (hx : Tight h Post t ops' x) : Tight pre Post s (ops ++ ops') x := by
  have hsuf : ∀ us, h ++ t.lexer.lookahead ++ us <:+ pre ++ s.lexer.lookahead ++ (ts ++ us) := by
    intro us
    obtain ⟨vs, hvs⟩ := hs
    exact ⟨vs, by rw [← List.append_assoc, hvs, List.append_assoc]⟩
  cases x with
  | ok v =>
    obtain ⟨a, u⟩ := v
    obtain ⟨us, g, h1, h2, h3, h4⟩ := hx
    refine ⟨ts ++ us, g, ?_, h2, h3.trans (hsuf us), h4⟩
    rw [Lexer.readAll_app_ok hr, h1]
    rfl
  | err e =>
    rcases hx with ⟨us, l, h1, h2⟩ | ⟨le, op, ops1, h1, h2, h3, us, l, h4⟩
    · refine .inl ⟨ts ++ us, l, ?_, fun hv' => ?_⟩
      · rw [Lexer.readAll_app_ok hr, h1]
        rfl
      · exact (h2 hv').mono fun t ht => lastTwo_suffix (hsuf us) ht
    · refine .inr ⟨le, op, ops ++ ops1, h1, by rw [h2, List.append_assoc], ?_, ts ++ us, l, ?_⟩
      · rw [Lexer.readAll_app_ok hr, h3]
        rfl
      · rw [Lexer.readAll_app_ok hr, h4]
        rfl
  | panic p => trivial
  | fuel => trivial

theorem Tight.ret {pre h : List Token} {Post : α → List Token → Prop} {s t : PState} {a : α}
    (hb : t.lexer.base = s.lexer.base) (hp : Post a h)
    (hs : h ++ t.lexer.lookahead <:+ pre ++ s.lexer.lookahead)
    (hl : (pre ++ s.lexer.lookahead).length ≤ 2) :
    Tight pre Post s [] (.ok (a, t)) :=
  ⟨[], h, by rw [hb]; rfl, hp, by rw [List.append_nil]; exact hs,
    Nat.le_trans hs.length_le hl⟩

theorem Tight.fail {pre : List Token} {Post : α → List Token → Prop} {s : PState} {e : PError}
    (he : e.Points pre) (hl : (pre ++ s.lexer.lookahead).length ≤ 2) :
    Tight pre Post s [] (.err e) :=
  .inl ⟨[], _, rfl, fun _ => he.mono fun t ht => by
    rw [List.append_nil]; exact lastTwo_append hl ht⟩

namespace JP

/-- Forget the tokens read before. -/
theorem weaken {pre : List Token} {Post : α → List Token → Prop} {m1 m2 m3 : P α}
    (h : JP [] Post m1 m2 m3) : JP pre Post m1 m2 m3 := by
  refine ⟨fun s hs => ?_, h.cong⟩
  obtain ⟨ops, h1, h2⟩ := h.suff s (by rw [List.length_append] at hs; simp; omega)
  refine ⟨ops, ?_, h2⟩
  exact Tight.after (ops := []) (ts := []) (h := []) rfl
    (by rw [List.append_nil]; exact List.suffix_append _ _) h1

end JP

namespace J

open JP

theorem cong2 {f2 f3 : α → P β} (h : ∀ a a', Rel a a' → Cong (f2 a) (f3 a')) {a a' : α}
    (ha : Rel a a') : Cong (f2 a) (f2 a') :=
  (h a a' ha).trans (h a' a' (.refl _)).symm

theorem congBind {m2 m3 : P α} {f2 f3 : α → P β} (h : Cong m2 m3)
    (hf : ∀ a a', Rel a a' → Cong (f2 a) (f3 a')) : Cong (m2 >>= f2) (m3 >>= f3) := by
  intro s s' hs
  have h1 := h s s' hs
  show ResC (P.bind m2 f2 s) (P.bind m3 f3 s')
  unfold P.bind
  cases hx : m2 s with
  | ok v =>
    obtain ⟨a, t⟩ := v
    rw [hx] at h1
    cases hy : m3 s' with
    | ok w =>
      obtain ⟨a', t'⟩ := w
      rw [hy] at h1
      exact hf a a' h1.1 t t' h1.2
    | err e => rw [hy] at h1; exact h1.elim
    | panic p => rw [hy] at h1; exact h1.elim
    | fuel => rw [hy] at h1; exact h1.elim
  | err e =>
    rw [hx] at h1
    cases hy : m3 s' with
    | ok w => rw [hy] at h1; exact h1.elim
    | err e => rw [hy] at h1; exact h1
    | panic p => rw [hy] at h1; exact h1.elim
    | fuel => rw [hy] at h1; exact h1.elim
  | panic p =>
    rw [hx] at h1
    cases hy : m3 s' with
    | ok w => rw [hy] at h1; exact h1.elim
    | err e => rw [hy] at h1; exact h1.elim
    | panic p => rw [hy] at h1; exact h1
    | fuel => rw [hy] at h1; exact h1.elim
  | fuel =>
    rw [hx] at h1
    cases hy : m3 s' with
    | ok w => rw [hy] at h1; exact h1.elim
    | err e => rw [hy] at h1; exact h1.elim
    | panic p => rw [hy] at h1; exact h1.elim
    | fuel => trivial

theorem suffBind {ι : Type} {pre : List Token} {Post1 : α → List Token → Prop}
    {Post2 : β → List Token → Prop} {m1 m2 : P α} {f1 : α → P β} {f2 : ι → α → P β}
    (h : Suff pre Post1 m1 m2)
    (hs : ∀ a h, Post1 a h → ∀ s, (h ++ s.lexer.lookahead).length ≤ 2 → ∃ ops,
      Tight h Post2 s ops (f1 a s) ∧
      ∀ i rest s', StR (ops ++ rest) s s' → ResS rest (f1 a s) (f2 i a s'))
    (hc : ∀ i a a', Rel a a' → Cong (f2 i a) (f2 i a')) (s : PState)
    (hle : (pre ++ s.lexer.lookahead).length ≤ 2) :
    ∃ ops, Tight pre Post2 s ops ((m1 >>= f1) s) ∧ ∀ i rest s', StR (ops ++ rest) s s' →
      ResS rest ((m1 >>= f1) s) ((m2 >>= f2 i) s') := by
  obtain ⟨ops1, h0, h1⟩ := h s hle
  show ∃ ops, Tight pre Post2 s ops (P.bind m1 f1 s) ∧ ∀ i rest s', StR (ops ++ rest) s s' →
    ResS rest (P.bind m1 f1 s) (P.bind m2 (f2 i) s')
  unfold P.bind
  cases hx : m1 s with
  | ok v =>
    obtain ⟨a, t⟩ := v
    rw [hx] at h0
    obtain ⟨ts, g, g1, g2, g3, g4⟩ := h0
    obtain ⟨ops2, g6, h2⟩ := hs a g g2 t g4
    refine ⟨ops1 ++ ops2, g6.after g1 g3, fun i rest s' h' => ?_⟩
    have h3 := h1 (ops2 ++ rest) s' (by rw [← List.append_assoc]; exact h')
    rw [hx] at h3
    cases hy : m2 s' with
    | ok w =>
      obtain ⟨a', t'⟩ := w
      rw [hy] at h3
      exact (h2 i rest t' h3.2).transC (hc i a a' h3.1 t' t' (.refl _))
    | err e => rw [hy] at h3; exact h3.elim
    | panic p => rw [hy] at h3; exact h3.elim
    | fuel => simp only; unfold ResS; split <;> first | trivial | (rename_i hn; exact (hn rfl).elim) | (rename_i h; cases h)
  | err e =>
    rw [hx] at h0
    refine ⟨ops1, h0, fun i rest s' h' => ?_⟩
    have h3 := h1 rest s' h'
    rw [hx] at h3
    cases hy : m2 s' with
    | ok w => rw [hy] at h3; exact h3.elim
    | err e => rw [hy] at h3; exact h3
    | panic p => rw [hy] at h3; exact h3.elim
    | fuel => trivial
  | panic p =>
    refine ⟨ops1, trivial, fun i rest s' h' => ?_⟩
    have h3 := h1 rest s' h'
    rw [hx] at h3
    cases hy : m2 s' with
    | ok w => rw [hy] at h3; exact h3.elim
    | err e => rw [hy] at h3; exact h3.elim
    | panic p => rw [hy] at h3; exact h3
    | fuel => trivial
  | fuel => exact ⟨[], trivial, fun _ _ _ _ => trivial⟩

variable {pre : List Token} {Post : α → List Token → Prop} {Post2 : β → List Token → Prop}

/-- Sequencing, in general. -/
theorem bindP {Post1 : α → List Token → Prop} {m1 m2 m3 : P α} {f1 f2 f3 : α → P β}
    (h : JP pre Post1 m1 m2 m3) (hex : ∀ a, ∃ g, Post1 a g)
    (hf : ∀ a a', Rel a a' → ∀ g, Post1 a g → JP g Post2 (f1 a) (f2 a) (f3 a')) :
    JP pre Post2 (m1 >>= f1) (m2 >>= f2) (m3 >>= f3) := by
  have hc : ∀ a a', Rel a a' → Cong (f2 a) (f3 a') := fun a a' ha => by
    obtain ⟨g, hg⟩ := hex a
    exact (hf a a' ha g hg).cong
  refine ⟨fun s hle => ?_, congBind h.cong hc⟩
  obtain ⟨ops, h0, h⟩ := suffBind (ι := Unit) (f2 := fun _ => f2) h.suff
      (fun a g hg s hl => by
        obtain ⟨ops, h0, h⟩ := (hf a a (.refl _) g hg).suff s hl
        exact ⟨ops, h0, fun _ => h⟩) (fun _ _ _ ha => cong2 hc ha) s hle
  exact ⟨ops, h0, h ()⟩

theorem bind {m1 m2 m3 : P α} {f1 f2 f3 : α → P β} (h : JP pre Nil m1 m2 m3)
    (hf : ∀ a a', Rel a a' → JP [] Post2 (f1 a) (f2 a) (f3 a')) :
    JP pre Post2 (m1 >>= f1) (m2 >>= f2) (m3 >>= f3) :=
  bindP h (fun _ => ⟨[], rfl⟩) fun a a' ha g hg => by subst hg; exact hf a a' ha

theorem pureP {a a' : α} {g : List Token} (h : Rel a a') (hp : Post a g) (hg : g <:+ pre) :
    JP pre Post (Pure.pure a : P α) (Pure.pure a) (Pure.pure a') :=
  ⟨fun _ hl => ⟨[], Tight.ret rfl hp (by
      obtain ⟨us, rfl⟩ := hg
      exact ⟨us, by rw [List.append_assoc]⟩) hl, fun _ _ hs => ⟨.refl _, hs⟩⟩,
    fun _ _ hs => ⟨h, hs⟩⟩

theorem pure {a a' : α} (h : Rel a a') :
    JP pre Nil (Pure.pure a : P α) (Pure.pure a) (Pure.pure a') :=
  pureP h rfl List.nil_suffix

theorem throw {e e' : PError} (h : e.blur = e'.blur) (hp : e.Points pre) :
    JP pre Post (P.throw e : P α) (P.throw e) (P.throw e') :=
  ⟨fun _ hl => ⟨[], Tight.fail hp hl, fun _ _ _ => rfl⟩, fun _ _ _ => h⟩

theorem panic {p : Panic} : JP pre Post (P.panic p : P α) (P.panic p) (P.panic p) :=
  ⟨fun _ _ => ⟨[], trivial, fun _ _ _ => rfl⟩, fun _ _ _ => rfl⟩

theorem fuel {m : P α} (h : Cong m m) : JP pre Post (fun _ => .fuel : P α) m m :=
  ⟨fun _ _ => ⟨[], trivial, fun _ _ _ => trivial⟩, h⟩

/-- Reading the state, of which only the parts that agree are used. -/
theorem get {f1 f2 f3 : PState → P α}
    (h : ∀ s s', Same s s' → JP pre Post (f1 s) (f2 s) (f3 s')) :
    JP pre Post (P.get >>= f1) (P.get >>= f2) (P.get >>= f3) := by
  constructor
  · intro s hl
    obtain ⟨ops, h0, h1⟩ := (h s s (.refl s)).suff s hl
    refine ⟨ops, h0, fun rest s' hs => ?_⟩
    exact (h1 rest s' hs).transC (((h s s' hs.toSame).cong s' s' (.refl _)).trans
      ((h s' s' (.refl _)).cong s' s' (.refl _)).symm)
  · intro s s' hs
    exact (h s s' hs.toSame).cong s s' hs

theorem modifyP {f f' : PState → PState}
    (h : ∀ s s', Same s s' → Same (f s) (f' s'))
    (hl : ∀ s, (f s).lexer = s.lexer) (hl' : ∀ s, (f' s).lexer = s.lexer) :
    JP pre (fun _ g => g = pre) (P.modify f) (P.modify f) (P.modify f') := by
  constructor
  · refine fun s hle => ⟨[], ?_, fun rest s' hs => ⟨.refl _, ?_, ?_⟩⟩
    · exact Tight.ret (h := pre) (by rw [hl]) rfl (by rw [hl]; exact List.suffix_refl _) hle
    · have h1 := h s s (.refl s)
      have h2 := h s s' hs.toSame
      have h3 := h s' s' (.refl s')
      exact h2.trans h3.symm
    · rw [hl, hl]; exact hs.alike
  · intro s s' hs
    exact ⟨.refl _, h s s' hs.toSame, by rw [hl, hl']; exact hs.reader, by rw [hl, hl']; exact hs.emptyLine⟩

theorem modify {f f' : PState → PState}
    (h : ∀ s s', Same s s' → Same (f s) (f' s'))
    (hl : ∀ s, (f s).lexer = s.lexer) (hl' : ∀ s, (f' s).lexer = s.lexer) :
    JP pre Nil (P.modify f) (P.modify f) (P.modify f') :=
  weaken (modifyP (pre := []) h hl hl')

theorem posnP : JP pre (fun _ g => g = pre) P.posn P.posn P.posn :=
  ⟨fun _ hl => ⟨[], Tight.ret (h := pre) rfl rfl (List.suffix_refl _) hl, fun _ _ hs => ⟨rfl, hs⟩⟩,
    fun _ _ hs => ⟨rfl, hs⟩⟩

theorem posn : JP pre Nil P.posn P.posn P.posn := weaken (posnP (pre := []))

/-- Reading the position. -/
theorem bindPosn {f1 f2 f3 : Posn → P β}
    (hf : ∀ a a', JP pre Post2 (f1 a) (f2 a) (f3 a')) :
    JP pre Post2 (P.posn >>= f1) (P.posn >>= f2) (P.posn >>= f3) :=
  bindP posnP (fun _ => ⟨pre, rfl⟩) fun a a' _ g hg => by subst hg; exact hf a a'

/-! ### The lexer -/

/-- Results of a call of the lexer. -/
def LexS (rest : List Bool) : Res LexError (α × Lexer) → Res LexError (α × Lexer) → Prop
  | .ok (a, l), .ok (a', l') => Rel a a' ∧ Rel l.lookahead l'.lookahead ∧ Alike rest l l'
  | .err e, .err e' => e = e'
  | .panic p, .panic p' => p = p'
  | _, _ => False

/-- Results of a call of the lexer on the same unread source. -/
def LexC : Res LexError (α × Lexer) → Res LexError (α × Lexer) → Prop
  | .ok (a, l), .ok (a', l') => Rel a a' ∧ Rel l.lookahead l'.lookahead ∧ l.reader = l'.reader ∧
      l.emptyLine = l'.emptyLine
  | .err e, .err e' => e = e'
  | .panic p, .panic p' => p = p'
  | .fuel, .fuel => True
  | _, _ => False

/-- A call of the lexer that reads exactly the tokens in the modes `ops`. -/
def LexT (pre : List Token) (Post : α → List Token → Prop) (l : Lexer) (ops : List Bool) :
    Res LexError (α × Lexer) → Prop
  | .ok (a, m) => ∃ ts h, l.base.readAll ops = .ok (ts, m.base) ∧ Post a h ∧
      h ++ m.lookahead <:+ pre ++ l.lookahead ++ ts ∧ (h ++ m.lookahead).length ≤ 2
  | .err le => ∃ op ops', ops = ops' ++ [op] ∧ l.base.readAll ops = .err le ∧
        ∃ ts m, l.base.readAll ops' = .ok (ts, m)
  | .panic _ | .fuel => True

theorem LexT.same {g : List Token} {l m : Lexer} {a : α} (hb : m.base = l.base) (hp : Post a g)
    (hs : g ++ m.lookahead = pre ++ l.lookahead) (hl : (pre ++ l.lookahead).length ≤ 2) :
    LexT pre Post l [] (.ok (a, m)) :=
  ⟨[], g, by rw [hb]; rfl, hp, by rw [List.append_nil, hs]; exact List.suffix_refl _,
    by rw [hs]; exact hl⟩

theorem lex {f f' : Lexer → Res LexError (α × Lexer)}
    (hs : ∀ l, (pre ++ l.lookahead).length ≤ 2 → ∃ ops, LexT pre Post l ops (f l) ∧
      ∀ rest l', Rel l.lookahead l'.lookahead → Alike (ops ++ rest) l l' → LexS rest (f l) (f l'))
    (hc : ∀ l l', Rel l.lookahead l'.lookahead → l.reader = l'.reader → l.emptyLine = l'.emptyLine →
      LexC (f l) (f' l')) : JP pre Post (P.lex f) (P.lex f) (P.lex f') := by
  constructor
  · intro s hl
    obtain ⟨ops, h0, h⟩ := hs s.lexer hl
    refine ⟨ops, ?_, fun rest s' h' => ?_⟩
    · unfold P.lex
      cases hx : f s.lexer with
      | ok v =>
        rw [hx] at h0
        obtain ⟨ts, g, h1, h2, h3, h4⟩ := h0
        exact ⟨ts, g, h1, h2, h3, h4⟩
      | err e =>
        rw [hx] at h0
        obtain ⟨op, ops', h1, h2, h3⟩ := h0
        exact .inr ⟨e, op, ops', rfl, h1, h2, h3⟩
      | panic p => trivial
      | fuel => trivial
    have h1 := h rest s'.lexer h'.lookahead h'.alike
    unfold P.lex
    cases hx : f s.lexer <;> cases hy : f s'.lexer <;> rw [hx, hy] at h1 <;> first
      | exact (h1 : False).elim
      | exact ⟨h1.1, ⟨h'.goal, h'.validate, h'.ctx, h'.deferred, h1.2.1⟩, h1.2.2⟩
      | (cases h1; rfl)
  · intro s s' h'
    have h1 := hc s.lexer s'.lexer h'.lookahead h'.reader h'.emptyLine
    unfold P.lex
    cases hx : f s.lexer <;> cases hy : f' s'.lexer <;> rw [hx, hy] at h1 <;> first
      | exact (h1 : False).elim
      | exact ⟨h1.1, ⟨h'.goal, h'.validate, h'.ctx, h'.deferred, h1.2.1⟩, h1.2.2.1, h1.2.2.2⟩
      | (cases h1; rfl)
      | trivial

/-- Reading one more token. -/
theorem readNextToken_all (op : Bool) (l : Lexer) :
    match l.readNextToken op with
    | .ok (t, m) => l.base.readAll [op] = .ok ([t], m.base)
    | .err e => l.base.readAll [op] = .err e
    | _ => True := by
  rw [readAll_base]
  cases l.readNextToken op with
  | ok v => rfl
  | err e => rfl
  | panic p => trivial
  | fuel => trivial

theorem readNextToken_cong (op : Bool) {l l' : Lexer} (h : l.reader = l'.reader)
    (h' : l.emptyLine = l'.emptyLine) :
    (∃ t m m', l.readNextToken op = .ok (t, m) ∧ l'.readNextToken op = .ok (t, m') ∧
      m.reader = m'.reader ∧ m.emptyLine = m'.emptyLine ∧ m.lookahead = l.lookahead ∧
      m'.lookahead = l'.lookahead) ∨
    (∃ e, l.readNextToken op = .err e ∧ l'.readNextToken op = .err e) ∨
    (∃ e, l.readNextToken op = .panic e ∧ l'.readNextToken op = .panic e) ∨
    (l.readNextToken op = .fuel ∧ l'.readNextToken op = .fuel) := by
  unfold Lexer.readNextToken
  rw [h, h']
  cases L.triviaLoop (l'.reader.rest.length + 1) l'.emptyLine false l'.reader with
  | ok v =>
    obtain ⟨⟨nl, e⟩, r⟩ := v
    simp only [Res.bind]
    cases L.readTokenBody op r with
    | ok w => exact .inl ⟨_, _, _, rfl, rfl, rfl, rfl, rfl, rfl⟩
    | err e => exact .inr (.inl ⟨_, rfl, rfl⟩)
    | panic p => exact .inr (.inr (.inl ⟨_, rfl, rfl⟩))
    | fuel => exact .inr (.inr (.inr ⟨rfl, rfl⟩))
  | err e => exact .inr (.inl ⟨_, rfl, rfl⟩)
  | panic p => exact .inr (.inr (.inl ⟨_, rfl, rfl⟩))
  | fuel => exact .inr (.inr (.inr ⟨rfl, rfl⟩))

theorem lookahead_cases {ts ts' : List Token} (h : Rel ts ts') :
    (ts = [] ∧ ts' = []) ∨ ∃ t t' us us', ts = t :: us ∧ ts' = t' :: us' ∧ Rel t t' ∧ Rel us us' := by
  cases ts with
  | nil =>
    cases ts' with
    | nil => exact .inl ⟨rfl, rfl⟩
    | cons t us => cases h
  | cons t us =>
    cases ts' with
    | nil => cases h
    | cons t' us' =>
      injection h with h1 h2
      exact .inr ⟨t, t', us, us', rfl, rfl, h1, h2⟩

theorem alike_base {ops : List Bool} {l l' m m' : Lexer} (h : Alike ops l l') (h1 : l.base = m.base)
    (h2 : l'.base = m'.base) : Alike ops m m' := by
  unfold Alike at h ⊢
  rw [← h1, ← h2]
  exact h

theorem readTokenP (op : Bool) (hpre : pre.length ≤ 1) :
    JP pre (fun t g => g = pre ++ [t]) (P.lex (Lexer.readToken op)) (P.lex (Lexer.readToken op))
      (P.lex (Lexer.readToken op)) := by
  refine lex (fun l hle => ?_) fun l l' h1 h2 h3 => ?_
  · cases hl : l.lookahead with
    | cons t ts =>
      refine ⟨[], ?_, fun rest l' h1 h2 => ?_⟩
      · unfold Lexer.readToken
        rw [hl]
        exact LexT.same rfl rfl (by rw [hl, List.append_assoc]; rfl) hle
      rcases lookahead_cases h1 with ⟨h, -⟩ | ⟨_, t', _, us', he, h3, h4, h5⟩
      · cases h
      · cases he
        unfold Lexer.readToken
        rw [hl, h3]
        exact ⟨h4, h5, alike_base h2 rfl rfl⟩
    | nil =>
      refine ⟨[op], ?_, fun rest l' h1 h2 => ?_⟩
      · unfold Lexer.readToken
        rw [hl]
        have h0 := readNextToken_all op l
        simp only
        cases hx : l.readNextToken op with
        | ok v =>
          obtain ⟨t, m⟩ := v
          rw [hx] at h0
          have hm := readNextToken_la hx
          refine ⟨[t], pre ++ [t], h0, rfl, ?_, ?_⟩
          · rw [hm, hl, List.append_nil, List.append_nil]; exact List.suffix_refl _
          · rw [hm, hl, List.append_nil, List.length_append]
            exact Nat.add_le_add_right hpre 1
        | err e =>
          rw [hx] at h0
          exact ⟨op, [], rfl, h0, [], _, rfl⟩
        | panic p => trivial
        | fuel => trivial
      rcases lookahead_cases h1 with ⟨-, h⟩ | ⟨_, _, _, _, he, _⟩
      · have h3 := h2.step
        unfold Lexer.readToken
        rw [hl, h]
        simp only
        cases hx : l.readNextToken op <;> cases hy : l'.readNextToken op <;> rw [hx, hy] at h3 <;>
          first
          | exact (h3 : False).elim
          | exact ⟨h3.1, by rw [readNextToken_la hx, readNextToken_la hy, hl, h]; rfl, h3.2⟩
          | exact h3
      · cases he
  · unfold Lexer.readToken
    rcases lookahead_cases h1 with ⟨ha, hb⟩ | ⟨t, t', us, us', ha, hb, h4, h5⟩
    · rw [ha, hb]
      rcases readNextToken_cong op h2 h3 with ⟨t, m, m', hx, hy, e1, e2, e3, e4⟩ | ⟨e, hx, hy⟩ |
        ⟨e, hx, hy⟩ | ⟨hx, hy⟩
      · simp only [hx, hy]
        exact ⟨.refl _, by rw [e3, e4, ha, hb]; rfl, e1, e2⟩
      · simp only [hx, hy]; exact rfl
      · simp only [hx, hy]; exact rfl
      · simp only [hx, hy]; trivial
    · rw [ha, hb]
      exact ⟨h4, h5, h2, h3⟩

theorem peekTokenP (op : Bool) (hpre : pre.length ≤ 1) :
    JP pre (fun _ g => g = pre) (P.lex (Lexer.peekToken op)) (P.lex (Lexer.peekToken op))
      (P.lex (Lexer.peekToken op)) := by
  refine lex (fun l hle => ?_) fun l l' h1 h2 h3 => ?_
  · cases hl : l.lookahead with
    | cons t ts =>
      refine ⟨[], ?_, fun rest l' h1 h2 => ?_⟩
      · unfold Lexer.peekToken
        rw [hl]
        exact LexT.same rfl rfl rfl hle
      rcases lookahead_cases h1 with ⟨h, -⟩ | ⟨_, t', _, us', he, h3, h4, h5⟩
      · cases h
      · cases he
        unfold Lexer.peekToken
        rw [hl, h3]
        exact ⟨h4, by rw [hl, h3]; exact h1.trans (by rw [h3]; exact .refl _), h2⟩
    | nil =>
      refine ⟨[op], ?_, fun rest l' h1 h2 => ?_⟩
      · unfold Lexer.peekToken
        rw [hl]
        have h0 := readNextToken_all op l
        simp only
        cases hx : l.readNextToken op with
        | ok v =>
          obtain ⟨t, m⟩ := v
          rw [hx] at h0
          refine ⟨[t], pre, h0, rfl, ?_, ?_⟩
          · rw [hl, List.append_nil]; exact List.suffix_refl _
          · rw [List.length_append]
            exact Nat.add_le_add_right hpre 1
        | err e =>
          rw [hx] at h0
          exact ⟨op, [], rfl, h0, [], _, rfl⟩
        | panic p => trivial
        | fuel => trivial
      rcases lookahead_cases h1 with ⟨-, h⟩ | ⟨_, _, _, _, he, _⟩
      · have h3 := h2.step
        unfold Lexer.peekToken
        rw [hl, h]
        simp only
        cases hx : l.readNextToken op <;> cases hy : l'.readNextToken op <;> rw [hx, hy] at h3 <;>
          first
          | exact (h3 : False).elim
          | exact ⟨h3.1, congrArg (· :: []) h3.1, alike_base h3.2 rfl rfl⟩
          | exact h3
      · cases he
  · unfold Lexer.peekToken
    rcases lookahead_cases h1 with ⟨ha, hb⟩ | ⟨t, t', us, us', ha, hb, h4, h5⟩
    · rw [ha, hb]
      rcases readNextToken_cong op h2 h3 with ⟨t, m, m', hx, hy, e1, e2, e3, e4⟩ | ⟨e, hx, hy⟩ |
        ⟨e, hx, hy⟩ | ⟨hx, hy⟩
      · simp only [hx, hy]
        exact ⟨.refl _, .refl _, e1, e2⟩
      · simp only [hx, hy]; exact rfl
      · simp only [hx, hy]; exact rfl
      · simp only [hx, hy]; trivial
    · rw [ha, hb]
      exact ⟨h4, by rw [ha, hb] at h1; rw [ha, hb]; exact h1, h2, h3⟩

/-- A postcondition that forgets the tokens read last. -/
theorem forget {Post1 : α → List Token → Prop} {m1 m2 m3 : P α} (h : JP pre Post1 m1 m2 m3) :
    JP pre Nil m1 m2 m3 := by
  refine ⟨fun s hl => ?_, h.cong⟩
  obtain ⟨ops, h0, h1⟩ := h.suff s hl
  refine ⟨ops, ?_, h1⟩
  cases hx : m1 s with
  | ok v =>
    obtain ⟨a, t⟩ := v
    rw [hx] at h0
    obtain ⟨ts, g, g1, _, g3, g4⟩ := h0
    refine ⟨ts, [], g1, rfl, (List.suffix_append g _).trans g3, ?_⟩
    rw [List.length_append] at g4
    rw [List.nil_append]
    omega
  | err e => rw [hx] at h0; exact h0
  | panic p => trivial
  | fuel => trivial

theorem readT : JP [] Tok P.read P.read P.read := readTokenP false (Nat.zero_le _)
theorem readOpT : JP [] Tok P.readOp P.readOp P.readOp := readTokenP true (Nat.zero_le _)
theorem read : J P.read P.read P.read := forget readT
theorem readOp : J P.readOp P.readOp P.readOp := forget readOpT
theorem peek : J P.peek P.peek P.peek := peekTokenP false (Nat.zero_le _)
theorem peekOp : J P.peekOp P.peekOp P.peekOp := peekTokenP true (Nat.zero_le _)

theorem skip_eq : P.skip = (P.read >>= fun _ => Pure.pure ()) := by
  funext s
  show P.lex (Lexer.skipToken false) s = P.bind (P.lex (Lexer.readToken false)) _ s
  simp only [P.lex, P.bind, Lexer.skipToken]
  cases Lexer.readToken false s.lexer <;> rfl

theorem skip : J P.skip P.skip P.skip := by
  rw [skip_eq]
  exact bind read fun _ _ _ => pure rfl

theorem rel_length {ts ts' : List α} (h : Rel ts ts') : ts.length = ts'.length := by
  have := congrArg List.length h
  simpa [Blur.blur] using this

theorem unreadP {t t' : Token} (ht : Rel t t') :
    JP (pre ++ [t]) (fun _ g => g = pre) (P.unread t) (P.unread t) (P.unread t') := by
  refine lex (fun l hle => ⟨[], ?_, fun rest l' h1 h2 => ?_⟩) fun l l' h1 h2 h3 => ?_
  · unfold Lexer.unreadToken
    split
    · exact LexT.same rfl rfl (by rw [List.append_assoc]; rfl) hle
    · trivial
  · unfold Lexer.unreadToken
    rw [rel_length h1]
    split
    · exact ⟨rfl, congrArg (_ :: ·) h1, alike_base h2 rfl rfl⟩
    · exact rfl
  · unfold Lexer.unreadToken
    rw [rel_length h1]
    split
    · exact ⟨rfl, ht.cons h1, h2, h3⟩
    · exact rfl

theorem unread {t t' : Token} (ht : Rel t t') :
    JP [t] Nil (P.unread t) (P.unread t) (P.unread t') := unreadP (pre := []) ht

theorem rereadTokenP : JP pre (fun t g => g = pre ++ [t]) P.rereadToken P.rereadToken
    P.rereadToken := by
  refine lex (fun l hle => ⟨[], ?_, fun rest l' h1 h2 => ?_⟩) fun l l' h1 h2 h3 => ?_
  · unfold Lexer.rereadToken
    cases hl : l.lookahead with
    | nil => trivial
    | cons t ts => exact LexT.same rfl rfl (by rw [hl, List.append_assoc]; rfl) hle
  all_goals
    unfold Lexer.rereadToken
    rcases lookahead_cases h1 with ⟨ha, hb⟩ | ⟨t, t', us, us', ha, hb, h4, h5⟩
    · rw [ha, hb]; exact rfl
    · rw [ha, hb]
      first
        | exact ⟨h4, h5, alike_base h2 rfl rfl⟩
        | exact ⟨h4, h5, h2, h3⟩

theorem rereadTokenT : JP [] Tok P.rereadToken P.rereadToken P.rereadToken := rereadTokenP
theorem rereadToken : J P.rereadToken P.rereadToken P.rereadToken := forget rereadTokenT

theorem repeekTokenP : JP pre (fun _ g => g = pre) (P.lex Lexer.repeekToken)
    (P.lex Lexer.repeekToken) (P.lex Lexer.repeekToken) := by
  refine lex (fun l hle => ⟨[], ?_, fun rest l' h1 h2 => ?_⟩) fun l l' h1 h2 h3 => ?_
  · unfold Lexer.repeekToken
    cases hl : l.lookahead with
    | nil => trivial
    | cons t ts => exact LexT.same rfl rfl rfl hle
  all_goals
    have h0 := h1
    unfold Lexer.repeekToken
    rcases lookahead_cases h1 with ⟨ha, hb⟩ | ⟨t, t', us, us', ha, hb, h4, h5⟩
    · rw [ha, hb]; exact rfl
    · rw [ha, hb]
      first
        | exact ⟨h4, h0, h2⟩
        | exact ⟨h4, h0, h2, h3⟩

theorem repeekToken :
    J (P.lex Lexer.repeekToken) (P.lex Lexer.repeekToken) (P.lex Lexer.repeekToken) :=
  repeekTokenP

/-! ### Loops -/

/-- One iteration of a loop, and the rest. -/
def cont (step : σ → P (σ ⊕ β)) (n : Nat) : σ ⊕ β → P β
  | .inl a => P.loopN step n a
  | .inr b => Pure.pure b

theorem loopN_succ (step : σ → P (σ ⊕ β)) (n : Nat) (a : σ) :
    P.loopN step (n + 1) a = (step a >>= cont step n) := by
  funext s
  show _ = P.bind _ _ _
  simp only [P.loopN]
  unfold P.bind
  cases step a s with
  | ok v =>
    obtain ⟨x, t⟩ := v
    cases x <;> rfl
  | err e => rfl
  | panic p => rfl
  | fuel => rfl

theorem sum_cases {x y : σ ⊕ β} (h : Rel x y) :
    (∃ a a', x = .inl a ∧ y = .inl a' ∧ Rel a a') ∨ ∃ b b', x = .inr b ∧ y = .inr b' ∧ Rel b b' := by
  cases x <;> cases y <;> first
    | (cases h; done)
    | (injection h with h; exact .inl ⟨_, _, rfl, rfl, h⟩)
    | (injection h with h; exact .inr ⟨_, _, rfl, rfl, h⟩)

theorem congLoop {step2 step3 : σ → P (σ ⊕ β)}
    (h : ∀ a a', Rel a a' → Cong (step2 a) (step3 a')) (n : Nat) :
    ∀ a a', Rel a a' → Cong (P.loopN step2 n a) (P.loopN step3 n a') := by
  induction n with
  | zero => exact fun _ _ _ _ _ _ => trivial
  | succ n ih =>
    intro a a' ha
    rw [loopN_succ, loopN_succ]
    refine congBind (h a a' ha) fun x y hxy => ?_
    rcases sum_cases hxy with ⟨b, b', rfl, rfl, hb⟩ | ⟨b, b', rfl, rfl, hb⟩
    · exact ih b b' hb
    · exact (pure (pre := []) hb).cong

theorem suffLoop {step1 step2 step3 : σ → P (σ ⊕ β)}
    (h : ∀ a a', Rel a a' → J (step1 a) (step2 a) (step3 a')) (n : Nat) :
    ∀ a s, ([] ++ s.lexer.lookahead : List Token).length ≤ 2 → ∃ ops,
      Tight [] Nil s ops (P.loopN step1 n a s) ∧ ∀ n' rest s', StR (ops ++ rest) s s' →
      ResS rest (P.loopN step1 n a s) (P.loopN step2 n' a s') := by
  induction n with
  | zero => exact fun _ _ _ => ⟨[], trivial, fun _ _ _ _ => trivial⟩
  | succ n ih =>
    intro a s hle
    obtain ⟨ops, h0, h1⟩ := suffBind (ι := Nat) (f1 := cont step1 n) (f2 := fun n' => cont step2 n')
      (Post2 := Nil) (h a a (.refl _)).suff
      (fun x g hg t ht => by
        subst hg
        cases x with
        | inl b => exact ih b t ht
        | inr b => exact ⟨[], Tight.ret (h := []) rfl rfl (List.suffix_refl _) ht,
            fun _ _ _ ht => ⟨.refl _, ht⟩⟩)
      (fun n' x y hxy => by
        rcases sum_cases hxy with ⟨b, b', rfl, rfl, hb⟩ | ⟨b, b', rfl, rfl, hb⟩
        · exact congLoop (fun a a' ha => cong2 (fun a a' ha => (h a a' ha).cong) ha) n' b b' hb
        · exact (pure (pre := []) hb).cong) s hle
    refine ⟨ops, by rw [loopN_succ]; exact h0, fun n' rest s' hs => ?_⟩
    cases n' with
    | zero => unfold ResS; rw [loopN_succ]; split <;> first | trivial | (rename_i h; exact (h rfl).elim) | (rename_i h; cases h)
    | succ n' => rw [loopN_succ, loopN_succ]; exact h1 n' rest s' hs

theorem loop {step1 step2 step3 : σ → P (σ ⊕ β)} {a a' : σ} (ha : Rel a a')
    (h : ∀ a a', Rel a a' → J (step1 a) (step2 a) (step3 a')) :
    J (P.loop step1 a) (P.loop step2 a) (P.loop step3 a') := by
  constructor
  · intro s hle
    obtain ⟨ops, h0, h1⟩ :=
      suffLoop h (s.lexer.reader.rest.length + s.lexer.lookahead.length + 1) a s hle
    exact ⟨ops, h0, fun rest s' hs => h1 _ rest s' hs⟩
  · intro s s' hs
    have h1 := congLoop (fun a a' ha => (h a a' ha).cong)
      (s.lexer.reader.rest.length + s.lexer.lookahead.length + 1) a a' ha s s' hs
    show ResC (P.loopN _ _ _ _) (P.loopN _ _ _ _)
    rw [← hs.reader, ← rel_length hs.lookahead]
    exact h1

end J

end Esprit
