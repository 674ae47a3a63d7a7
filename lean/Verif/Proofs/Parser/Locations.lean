import Verif.Spec.Locations
import Verif.Proofs.Parser.Nodes
import Verif.Proofs.LexSeq

/-! The locations of derived trees. -/

set_option linter.unusedSectionVars false
set_option linter.unusedVariables false

namespace Esprit

open Lex ReaderSpec Grammar

/-- Tokens whose spans follow each other in the text. -/
inductive Ordered (S : Str) : List Token → Prop where
  | nil : Ordered S []
  | cons {t : Token} {ts : List Token} : Loc.Within S (some t.location) →
      (∀ u ∈ ts, t.location.end.offset ≤ u.location.start.offset) → Ordered S ts →
      Ordered S (t :: ts)

section Roots

variable [Env] {S : Str} {c : Cat} {env : Scope} {nt : NT c} {i i0 i1 i2 inp rest : List Token}
  {x : Ast c} {t t2 : Token} {l a b : Loc}

theorem Ordered.suffix (h : Ordered S i) (hs : i1 <:+ i) : Ordered S i1 := by
  induction h with
  | nil => rw [List.suffix_nil.1 hs]; exact .nil
  | cons hw hl ho ih =>
    rcases List.suffix_cons_iff.1 hs with rfl | hs
    · exact .cons hw hl ho
    · exact ih hs

theorem Ordered.mem (h : Ordered S i) (ht : t ∈ i) : Loc.Within S (some t.location) := by
  induction h with
  | nil => cases ht
  | cons hw hl ho ih =>
    rcases List.mem_cons.1 ht with rfl | ht
    · exact hw
    · exact ih ht

theorem Loc.Within.tok {sp : Span} (h : Loc.Within S (some sp)) :
    sp.start.offset ≤ sp.end.offset ∧ sp.end.offset ≤ S.length ∧ PosnAt S sp.start.offset sp.start ∧
      PosnAt S sp.end.offset sp.end := by
  obtain ⟨p, q, e, h⟩ := h
  cases e
  exact h

theorem Ordered.lt (h : Ordered S (i ++ i1)) (ht : t ∈ i) (ht2 : t2 ∈ i1) :
    t.location.end.offset ≤ t2.location.end.offset := by
  induction i with
  | nil => cases ht
  | cons u us ih =>
    cases h with
    | cons hw hl ho =>
      rcases List.mem_cons.1 ht with rfl | ht
      · have h1 := hl t2 (List.mem_append_right _ ht2)
        exact Nat.le_trans h1 (ho.mem (List.mem_append_right _ ht2)).tok.1
      · exact ih ho ht

theorem Lex.Tokens.ordered {k k' : Nat} {e : Bool} {ops : List Bool} {ts : List Token}
    (h : Tokens S k e ops ts k') (hk : k ≤ S.length) :
    Ordered S ts ∧ ∀ t ∈ ts, k ≤ t.location.start.offset := by
  induction h with
  | nil => exact ⟨.nil, by simp⟩
  | @cons k k1 k2 e op ops t ts h1 h2 ih =>
    have hx := h1.text
    have he := h1.end_offset
    obtain ⟨a1, a2, a3, -, -, -, -, a8, a9⟩ := h1.text
    have hle : t.location.end.offset ≤ S.length := by omega
    obtain ⟨ih1, ih2⟩ := ih (by omega)
    refine ⟨.cons ⟨_, _, rfl, a2, hle, a8, a9⟩ (fun u hu => ?_) ih1, fun u hu => ?_⟩
    · have := ih2 u hu; omega
    · rcases List.mem_cons.1 hu with rfl | hu
      · exact a1
      · have := ih2 u hu; omega

/-- A span of the text that starts before and ends after the end of one of the
tokens up to `rest`. -/
def Rg (S : Str) (inp rest : List Token) (l : Loc) : Prop :=
  ∃ p q m t, l = some ⟨p, q⟩ ∧ q.offset ≤ S.length ∧ PosnAt S p.offset p ∧ PosnAt S q.offset q ∧
    inp = m ++ rest ∧ t ∈ m ∧ p.offset ≤ t.location.end.offset ∧ t.location.end.offset ≤ q.offset

/-- A span of the text that ends after all the tokens up to `rest`, of which
there is one. -/
def St (S : Str) (inp rest : List Token) (l : Loc) : Prop :=
  ∃ p q m t, l = some ⟨p, q⟩ ∧ p.offset ≤ q.offset ∧ q.offset ≤ S.length ∧ PosnAt S p.offset p ∧
    PosnAt S q.offset q ∧ inp = m ++ rest ∧ t ∈ m ∧ ∀ t ∈ m, t.location.end.offset ≤ q.offset

/-- A span of the text after the first token. -/
def Af (S : Str) (inp : List Token) (l : Loc) : Prop :=
  ∃ p q t r, l = some ⟨p, q⟩ ∧ p.offset ≤ q.offset ∧ q.offset ≤ S.length ∧ PosnAt S p.offset p ∧
    PosnAt S q.offset q ∧ inp = t :: r ∧ t.location.end.offset ≤ p.offset

theorem Rg.within (h : Rg S inp rest l) : Loc.Within S l := by
  obtain ⟨p, q, m, t, e, h1, h2, h3, -, -, h4, h5⟩ := h
  exact ⟨p, q, e, Nat.le_trans h4 h5, h1, h2, h3⟩

theorem St.within (h : St S inp rest l) : Loc.Within S l := by
  obtain ⟨p, q, m, t, e, h0, h1, h2, h3, -⟩ := h
  exact ⟨p, q, e, h0, h1, h2, h3⟩

theorem Af.within (h : Af S inp l) : Loc.Within S l := by
  obtain ⟨p, q, t, r, e, h0, h1, h2, h3, -⟩ := h
  exact ⟨p, q, e, h0, h1, h2, h3⟩

theorem Grammar.Located.within (h : Located S inp rest l) : Loc.Within S l := by
  obtain ⟨p, q, m, e, h0, ⟨⟨j, -, hj⟩, -, -, -⟩, ⟨⟨k, hk, hq⟩, -, -, -⟩, -⟩ := h
  refine ⟨p, q, e, h0, by rw [hq.offset]; exact hk, by rw [hj.offset]; exact hj,
    by rw [hq.offset]; exact hq⟩

theorem Grammar.Located.st (h : Located S inp rest l) (hs : rest <:+ i) (hi : i <:+ inp)
    (hlt : i.length < inp.length) : St S inp rest l := by
  have hw := h.within
  obtain ⟨p, q, m, e, h0, hj, hk, h1, h2⟩ := h
  obtain ⟨p', q', e', h0', h1', h2', h3'⟩ := hw
  rw [e] at e'
  cases e'
  have : m ≠ [] := by
    rintro rfl
    rw [h1] at hlt
    have := hs.length_le
    simp at hlt
    omega
  obtain ⟨t, ht⟩ := List.exists_mem_of_ne_nil m this
  exact ⟨p, q, m, t, e, h0, h1', h2', h3', h1, ht, h2⟩

theorem Grammar.Located.stTok (h : Located S (t :: i) rest l) (hs : rest <:+ i) :
    St S (t :: i) rest l := h.st hs (List.suffix_cons _ _) (by simp)

theorem Rg.tok (ho : Ordered S (t :: i)) : Rg S (t :: i) i (some t.location) := by
  obtain ⟨h1, h2, h3, h4⟩ := (ho.mem (List.mem_cons_self ..)).tok
  exact ⟨_, _, [t], t, rfl, h2, h3, h4, rfl, List.mem_singleton.2 rfl, h1, Nat.le_refl _⟩

theorem Rg.widen (h : Rg S i i1 l) (hi : i <:+ inp) (hr : rest <:+ i1) : Rg S inp rest l := by
  obtain ⟨p, q, m, t, e, h1, h2, h3, rfl, ht, h4, h5⟩ := h
  obtain ⟨m1, rfl⟩ := hi
  obtain ⟨m2, rfl⟩ := hr
  exact ⟨p, q, m1 ++ (m ++ m2), t, e, h1, h2, h3, by simp, by simp [ht], h4, h5⟩

theorem Rg.span (ho : Ordered S inp) (ha : Rg S inp i1 a) (hs : i2 <:+ i1) (hb : Rg S i2 rest b) :
    Rg S inp rest (spanLoc a b) := by
  obtain ⟨p, q, m, t, rfl, h1, h2, h3, rfl, ht, h4, h5⟩ := ha
  obtain ⟨m1, rfl⟩ := hs
  obtain ⟨p', q', m', t', rfl, h1', h2', h3', rfl, ht', h4', h5'⟩ := hb
  have := ho.lt (t := t) (t2 := t') ht (by simp [ht'])
  exact ⟨p, q', m ++ (m1 ++ m'), t', rfl, h1', h2, h3', by simp, by simp [ht'], by omega, by omega⟩

theorem Rg.spanAf (ho : Ordered S inp) (ha : Rg S inp i1 a) (hs : i2 <:+ i1) (hb : Af S i2 b)
    (hr : ∀ t r, i2 = t :: r → rest <:+ r) :
    Rg S inp rest (spanLoc a b) := by
  obtain ⟨p, q, m, t, rfl, h1, h2, h3, rfl, ht, h4, h5⟩ := ha
  obtain ⟨m1, rfl⟩ := hs
  obtain ⟨p', q', t', r, rfl, h0', h1', h2', h3', rfl, h5'⟩ := hb
  obtain ⟨m2, rfl⟩ := hr _ _ rfl
  have := ho.lt (t := t) (t2 := t') ht (by simp)
  exact ⟨p, q', m ++ (m1 ++ t' :: m2), t', rfl, h1', h2, h3', by simp, by simp, by omega, by omega⟩

theorem Grammar.PropName.loc {k : PropKey} (h : PropName t k) : k.loc = some t.location := by
  cases h <;> rfl

theorem Grammar.MemberName.loc {k : DotKey} (h : MemberName t k) : k.location = some t.location := by
  cases h <;> rfl

theorem Grammar.Ident.loc {b : Bool} {j : Id} (h : Ident env b t j) : j.location = some t.location := by
  cases h; rfl

theorem loc_target (x : AssignTarget) : (Patt.sourceTarget x).loc = x.loc := by cases x <;> rfl

theorem loc_patt (p : PattTarget) : (Patt.sourceExpr p).loc = p.loc := by
  match p with
  | .pSimple t => exact loc_target t
  | .pCompound (.cArr ..) => rfl
  | .pCompound (.cObj ..) => rfl

/-- The kinds of claims about the location of the root. -/
inductive LocKind where
  | range | ranges | whole | after | none

/-- The kind of claim for a nonterminal. -/
def Grammar.NT.locKind : {c : Cat} → NT c → LocKind
  | _, .primary | _, .lhs _ | _, .newBase _ | _, .new _ | _, .postfix | _, .unary | _, .binary _
  | _, .cond | _, .assign | _, .expr | _, .name | _, .pattern | _, .func _ => .range
  | _, .exprs => .ranges
  | _, .stmt | _, .block => .whole
  | _, .functionBody => .after
  | _, _ => .none

/-- The elements of a list of expressions. -/
def exprsOf : {c : Cat} → Ast c → List Expr
  | .list .expr, x => x.toList
  | _, _ => []

/-- What is claimed about the location of the root. -/
def LocClaim (S : Str) {c : Cat} (inp rest : List Token) (x : Ast c) : LocKind → Prop
  | .range => Rg S inp rest x.loc
  | .ranges => ∀ a z, (exprsOf x).head? = some a → (exprsOf x).getLast? = some z →
      Rg S inp rest (spanLoc a.loc z.loc)
  | .whole => St S inp rest x.loc
  | .after => Af S inp x.loc
  | .none => True

/-- Goals `Ordered S i`. -/
macro "ord" : tactic => `(tactic| (refine Ordered.suffix (by assumption) ?_; sfx'))

/-- The span of a token, from a hypothesis on the whole. -/
theorem Rg.tokAt (ho : Ordered S inp) (h : (t :: i) <:+ inp) : Rg S (t :: i) i (some t.location) :=
  Rg.tok (ho.suffix h)

theorem functionBody_suffix {b : Ast (.body .sitem)} (h : Derives (Located S) env .functionBody inp rest b) :
    ∀ t r, inp = t :: r → rest <:+ r := by
  cases h with
  | functionBody h1 h2 h3 h4 =>
    rintro t r e
    cases e
    exact (List.suffix_cons _ _).trans h2.suffix

theorem Rg.spanSelf (h : Rg S inp rest l) : Rg S inp rest (spanLoc l l) := by
  obtain ⟨p, q, m, t, rfl, h⟩ := h
  exact ⟨p, q, m, t, rfl, h⟩

theorem spanLoc_right {a b d : Loc} (h : b ≠ none) : spanLoc a (spanLoc b d) = spanLoc a d := by
  cases a <;> cases b <;> cases d <;> first | rfl | exact absurd rfl h

theorem Rg.ne (h : Rg S inp rest (spanLoc a b)) : a ≠ none := by
  rintro rfl
  obtain ⟨p, q, m, t, e, h⟩ := h
  cases e

theorem functionBody_af {b : Ast (.body .sitem)}
    (h : Derives (Located S) env (.body .items) i (t2 :: rest) b) (ha : StartsAfter b.loc t) :
    Af S (t :: i) b.loc := by
  cases h with
  | body _ hl =>
    obtain ⟨p, q, e, h0, h1, h2, h3⟩ := hl.within
    refine ⟨p, q, t, i, e, h0, h1, h2, h3, rfl, ?_⟩
    exact ha _ e

/-- The span of a function: it starts before the closing brace. -/
theorem function_rg {b : Ast (.body .sitem)} (hl : Located S inp rest l)
    (hi : i <:+ inp) (hb : Derives (Located S) env .functionBody i rest b) (hw : Ordered S inp)
    (hsb : StartsBefore l i) : Rg S inp rest l := by
  have hwl := hl.within
  obtain ⟨p, q, m, e, h0, hj, hk, h1, h2⟩ := hl
  obtain ⟨p', q', e', h0', h1', h2', h3'⟩ := hwl
  rw [e] at e'
  cases e'
  cases hb with
  | functionBody hv hd hv2 ha =>
    rename_i u t
    obtain ⟨m1, rfl⟩ := hi
    obtain ⟨m2, hm⟩ := (List.suffix_cons _ _).trans hd.suffix
    subst hm
    have hmem : t ∈ m := by
      have : m = m1 ++ t :: m2 := by
        have : m ++ rest = (m1 ++ t :: m2) ++ rest := by rw [← h1]; simp
        exact List.append_cancel_right this
      rw [this]; simp
    refine ⟨p, q, m, t, e, h1', h2', h3', h1, hmem, ?_, h2 t hmem⟩
    have := hsb _ e t (List.mem_cons_self ..)
    have := (hw.mem (t := t) (by simp)).tok.1
    simp only at *
    omega

theorem StartsBefore.suffix (h : StartsBefore l i) (hs : i1 <:+ i) : StartsBefore l i1 :=
  fun sp e t ht => h sp e t (hs.subset ht)

theorem label_st {b : Bool} {j : Id} {s : Stmt} (ho : Ordered S (t :: t2 :: i)) (hi : Ident env b t j)
    (h : St S i rest s.loc) : St S (t :: t2 :: i) rest (spanLoc j.location s.loc) := by
  obtain ⟨p, q, m, u, e, h0, h1, h2, h3, rfl, hu, ha⟩ := h
  have hw := (ho.mem (List.mem_cons_self ..)).tok
  have hlt : ∀ v ∈ [t, t2], v.location.end.offset ≤ u.location.end.offset := fun v hv =>
    Ordered.lt (i := [t, t2]) (i1 := m ++ rest) ho hv (List.mem_append_left _ hu)
  have hq := ha u hu
  rw [hi.loc, e]
  refine ⟨_, q, t :: t2 :: m, t, rfl, ?_, h1, hw.2.2.1, h3, rfl, List.mem_cons_self .., ?_⟩
  · have := hlt t (by simp); omega
  · intro v hv
    simp only [List.mem_cons] at hv
    rcases hv with rfl | rfl | hv
    · have := hlt v (by simp); omega
    · have := hlt v (by simp); omega
    · exact ha v hv

set_option maxHeartbeats 1000000 in
theorem Grammar.Derives.root (h : Derives (Located S) env nt inp rest x) (ho : Ordered S inp) :
    LocClaim S inp rest x nt.locKind := by
  induction h
  -- a single token
  case identifier h => show Rg _ _ _ (Id.location _); rw [h.loc]; exact .tok ho
  case kNull => exact .tok ho
  case kThis => exact .tok ho
  case kTrue => exact .tok ho
  case kFalse => exact .tok ho
  case number => exact .tok ho
  case string => exact .tok ho
  case regExp => exact .tok ho
  case name h => show Rg _ _ _ (Id.location _); rw [h.loc]; exact .tok ho
  case pattern h => show Rg _ _ _ (Id.location _); rw [h.loc]; exact .tok ho
  case array h _ ih => exact .span ho (.tok ho) h.suffix (.tokAt ho (by sfx'))
  case object h _ ih => exact .span ho (.tok ho) h.suffix (.tokAt ho (by sfx'))
  case newTarget => exact .span ho (.tok ho) (List.suffix_cons _ _) (.tokAt ho (by sfx'))
  case paren h _ ih => exact (ih (by ord)).widen (by sfx') (by sfx')
  case dot hk ih => 
    show Rg _ _ _ (spanLoc _ _); rw [hk.loc]
    exact .span ho (ih ho) (List.suffix_cons _ _) (.tokAt ho (by sfx'))
  case brack ih _ => exact .span ho (ih ho) (i2 := _ :: _) (by sfx') (.tokAt ho (by sfx'))
  case call ih _ => exact .span ho (ih ho) (i2 := _ :: _) (by sfx') (.tokAt ho (by sfx'))
  case newArgs => exact .span ho (.tok ho) (i2 := _ :: _) (by sfx') (.tokAt ho (by sfx'))
  case newNoArgs ih => exact .span ho (.tok ho) (List.suffix_refl _) (ih (by ord))
  case postInc ih => exact (Rg.tokAt ho (by sfx')).widen (by sfx') (by sfx')
  case postDec ih => exact (Rg.tokAt ho (by sfx')).widen (by sfx') (by sfx')
  case preInc ih => exact (Rg.tokAt ho (by sfx')).widen (by sfx') (by sfx')
  case preDec ih => exact (Rg.tokAt ho (by sfx')).widen (by sfx') (by sfx')
  case unop h _ ih =>
    show Rg _ _ _ (spanLoc _ _); rw [h.1]
    exact .span ho (.tok ho) (List.suffix_refl _) (ih (by ord))
  case binop ih1 ih2 => exact .span ho (ih1 ho) (List.suffix_cons _ _) (ih2 (by ord))
  case logop ih1 ih2 => exact .span ho (ih1 ho) (List.suffix_cons _ _) (ih2 (by ord))
  case cond ih1 ih2 ih3 =>
    exact (Rg.span (by ord) (ih2 (by ord)) (List.suffix_cons _ _) (ih3 (by ord))).widen (by sfx') (by sfx')
  case assign ih1 ih2 =>
    show Rg _ _ _ (spanLoc _ _); rw [← loc_patt]
    exact .span ho (ih1 ho) (List.suffix_cons _ _) (ih2 (by ord))
  case binAssign ih1 ih2 =>
    show Rg _ _ _ (spanLoc _ _); rw [← loc_target]
    exact .span ho (ih1 ho) (List.suffix_cons _ _) (ih2 (by ord))
  case exprsLast ih =>
    rintro a z ha hz
    cases ha; cases hz
    exact (ih ho).spanSelf
  case exprsCons h _ hd ih1 ih2 =>
    rintro a z ha hz
    cases ha
    have : ∃ b xs, Ast.toList ‹Ast (.list .expr)› = b :: xs := by
      cases hd
      · exact ⟨_, _, rfl⟩
      · exact ⟨_, _, rfl⟩
    obtain ⟨b, xs, hb⟩ := this
    have h2 := ih2 (by ord) b z (by
      show (Ast.toList _).head? = _
      rw [hb]; rfl) (by
      replace hz : (_ :: Ast.toList _).getLast? = _ := hz
      show (Ast.toList _).getLast? = _
      rw [hb] at hz ⊢
      simpa using hz)
    rw [← spanLoc_right h2.ne]
    exact .span ho (ih1 ho) (List.suffix_cons _ _) h2
  case exprSeq h ih => exact ih ho _ _ rfl h
  case func hn hp hb hl hsb ih1 ih2 ih3 => 
    refine function_rg hl (by sfx') hb ho (StartsBefore.suffix hsb ?_)
    cases hp with
    | params h1 h2 h3 h4 =>
      have := h2.suffix
      obtain ⟨m, e⟩ := hn.suffix
      rw [← e]
      cases m with
      | nil => exact (List.suffix_cons _ _).trans this
      | cons u m =>
        show _ <:+ m ++ _ :: _
        exact (((List.suffix_cons _ _).trans this).trans (List.suffix_cons _ _)).trans (List.suffix_append _ _)
  case funcGenerator hn hp hb hl hsb ih1 ih2 ih3 =>
    exact function_rg hl (by sfx') hb ho (StartsBefore.suffix hsb (by sfx'))
  case functionBody h1 h2 h3 h4 ih => exact functionBody_af h2 h4
  case labelStmt hi _ hd ih => exact label_st ho hi (ih (by ord))
  case exprStmt hd _ hl ih =>
    obtain ⟨-, -, m, t, -, -, -, -, e, ht, -⟩ := ih ho
    refine hl.st (i := _) (Term.suffix (by assumption)) (by sfx') ?_
    rw [e, List.length_append]
    have := List.length_pos_of_mem ht
    omega
  all_goals first
    | trivial
    | (rename_i ih; exact ih ho)
    | (refine Grammar.Located.stTok (by assumption) ?_; sfx')

end Roots

section Everywhere

variable [Env] {S : Str} {c : Cat} {env : Scope} {nt : NT c} {i i0 i1 i2 inp rest : List Token}
  {x : Ast c} {t t2 : Token} {l a b : Loc} {w w' : Place}

/-- The locations of the node are spans of the text. -/
def LocOk (S : Str) (_ : Place) (y : Node) : Prop := ∀ l ∈ y.2.ownLocs, Loc.Within S l

theorem locOk_stable : PattStable (LocOk S) where
  wrap := by
    intro w d y hd
    cases y <;> first | (simp [wrapCats] at hd; done) | (intro l hl; cases hl)
  target := by
    intro w y h
    cases y <;> exact h
  arr := fun h => h
  obj := fun h => h
  rest := fun h => h
  prop := fun h => h
  shorthand := fun h => h

/-- The nonterminals whose trees are complete. -/
def Grammar.NT.final : {c : Cat} → NT c → Bool
  | _, .func nt => final nt
  | _, .body nt => final nt
  | _, .paramItems => false
  | _, .prologue _ => false
  | _, _ => true

/-- The nonterminals whose trees lack the location of the root. -/
def Grammar.NT.part : {c : Cat} → NT c → Bool
  | _, .paramItems => true
  | _, .prologue nt => final nt
  | _, _ => false

/-- The claim about all locations. -/
structure LocsOk (S : Str) (nt : NT c) (x : Ast c) : Prop where
  final : nt.final = true → ∀ w, All w ⟨c, x⟩ (LocOk S)
  part : nt.part = true → (∀ w, ∀ k ∈ x.kids w, All k.1 k.2 (LocOk S)) ∧
    ∀ l ∈ x.ownLocs.tail, Loc.Within S l

/-- The claim, for a derivation. -/
def LClaim (h : Derives (Located S) env nt inp rest x) : Prop := Ordered S inp → LocsOk S nt x

theorem LClaim.mk (h : Derives (Located S) env nt inp rest x) (hp : nt.part = false)
    (H : nt.final = true → Derives (Located S) env nt inp rest x → Ordered S inp → ∀ w,
      LocOk S w ⟨c, x⟩ ∧ ∀ k ∈ x.kids w, All k.1 k.2 (LocOk S)) : LClaim h :=
  fun ho => ⟨fun hf w => All.mk (H hf h ho w).1 (H hf h ho w).2, fun h => by rw [hp] at h; cases h⟩

theorem own0 {P : Loc → Prop} : ∀ k ∈ ([] : List Loc), P k := by simp

theorem own1 {P : Loc → Prop} {a : Loc} (ha : P a) : ∀ k ∈ [a], P k := by simpa using ha

theorem own2 {P : Loc → Prop} {a b : Loc} (ha : P a) (hb : P b) : ∀ k ∈ [a, b], P k := by
  simp only [List.mem_cons, List.not_mem_nil, or_false, forall_eq_or_imp, forall_eq]
  exact ⟨ha, hb⟩

theorem Ordered.tokAt (ho : Ordered S inp) (h : (t :: i) <:+ inp) :
    Loc.Within S (some t.location) := ho.mem (h.subset (List.mem_cons_self ..))

theorem Loc.Within.of (h : Loc.Within S b) (e : a = b) : Loc.Within S a := e ▸ h

/-- A location slot. -/
macro "slot" : tactic => `(tactic| first
  | exact Grammar.Located.within (by assumption)
  | exact Ordered.tokAt ‹Ordered _ _› (by sfx')
  | (refine Loc.Within.of ?_ (Ident.loc ‹Ident _ _ _ _›); exact Ordered.tokAt ‹Ordered _ _› (by sfx'))
  | (refine Loc.Within.of ?_ (PropName.loc ‹PropName _ _›); exact Ordered.tokAt ‹Ordered _ _› (by sfx'))
  | (refine Loc.Within.of ?_ (MemberName.loc ‹MemberName _ _›); exact Ordered.tokAt ‹Ordered _ _› (by sfx'))
  | (refine Loc.Within.of ?_ (And.left ‹IsUnop _ _›); exact Ordered.tokAt ‹Ordered _ _› (by sfx'))
  | (refine Loc.Within.of ?_ (And.left ‹IsBinop _ _ _›); exact Ordered.tokAt ‹Ordered _ _› (by sfx'))
  | (refine Loc.Within.of ?_ (And.left ‹IsLogop _ _›); exact Ordered.tokAt ‹Ordered _ _› (by sfx'))
  | (refine Loc.Within.of ?_ (And.left ‹IsAssop _ _›); exact Ordered.tokAt ‹Ordered _ _› (by sfx')))

/-- The location slots of a node. -/
macro "slots" : tactic => `(tactic| first
  | exact own0
  | (refine own1 ?_; slot)
  | (refine own2 ?_ ?_ <;> slot))

/-- A subtree. -/
syntax "lkid" : tactic
macro_rules
  | `(tactic| lkid) => `(tactic|
      first
      | (apply LocsOk.final; (focus apply_assumption; ord); (first | rfl | assumption))
      | (refine patt_all locOk_stable _ ?_; apply LocsOk.final; (focus apply_assumption; ord); rfl)
      | (refine target_all locOk_stable _ ?_; apply LocsOk.final; (focus apply_assumption; ord); rfl)
      | (refine All.mk ?_ ?_; (focus (slots)); subtrees; all_goals lkid))

/-- The span of two parts. -/
theorem within_span (ho : Ordered S inp) (ha : Rg S inp i1 a) (hb : Rg S i2 rest b)
    (hs : i2 <:+ i1) : Loc.Within S (spanLoc a b) := (Rg.span ho ha hs hb).within

theorem Rg.key {k : PropKey} (h : PropName t k) (ho : Ordered S (t :: i)) :
    Rg S (t :: i) i k.loc := by rw [h.loc]; exact .tok ho

theorem Rg.ident {b : Bool} {j : Id} (h : Ident env b t j) (ho : Ordered S (t :: i)) :
    Rg S (t :: i) i j.location := by rw [h.loc]; exact .tok ho

theorem within_span_body {bd : Ast (.body .sitem)} (ho : Ordered S inp) (ha : Rg S inp i1 a)
    (hb : Derives (Located S) env .functionBody i2 rest bd) (hs : i2 <:+ i1) :
    Loc.Within S (spanLoc a bd.loc) := by
  have hi : i1 <:+ inp := by
    obtain ⟨_, _, m, _, _, _, _, _, e, _⟩ := ha
    exact ⟨m, e.symm⟩
  exact (Rg.spanAf ho ha hs (hb.root (ho.suffix (hs.trans hi))) (functionBody_suffix hb)).within

theorem Grammar.Derives.lclaim (h : Derives (Located S) env nt inp rest x) : LClaim h := by
  induction h
  case propInit hk _ hd ih =>
    refine LClaim.mk _ rfl fun hf hz ho w => ?_
    clear hz
    refine ⟨own2 ?_ (by slot), ?_⟩
    · exact within_span ho (.key hk ho) (hd.root (by ord)) (by sfx')
    · unfold LClaim at *; subtrees; all_goals lkid
  case propMethod hk _ hb ih1 ih2 =>
    refine LClaim.mk _ rfl fun hf hz ho w => ?_
    clear hz
    refine ⟨own0, kids1 (All.mk (own1 ?_) ?_)⟩
    · exact within_span_body ho (.key hk ho) hb (by sfx')
    · unfold LClaim at *; subtrees; all_goals lkid
  case propGenerator hk _ hb ih1 ih2 =>
    refine LClaim.mk _ rfl fun hf hz ho w => ?_
    clear hz
    refine ⟨own0, kids1 (All.mk (own1 ?_) ?_)⟩
    · exact within_span_body (by ord) (.key hk (by ord)) hb (by sfx')
    · unfold LClaim at *; subtrees; all_goals lkid
  case propGet hk _ _ hb ih =>
    refine LClaim.mk _ rfl fun hf hz ho w => ?_
    clear hz
    refine ⟨own2 ?_ (by slot), kids1 (All.mk (own1 ?_) ?_)⟩
    · exact within_span_body (by ord) (.key hk (by ord)) hb (by sfx')
    · exact within_span_body (by ord) (.tok (by ord)) hb (by sfx')
    · unfold LClaim at *; subtrees; all_goals lkid
  case propSet hk _ hp _ hb ih1 ih2 =>
    refine LClaim.mk _ rfl fun hf hz ho w => ?_
    clear hz
    refine ⟨own2 ?_ (by slot), kids1 (All.mk (own1 ?_) ?_)⟩
    · exact within_span_body (by ord) (.key hk (by ord)) hb (by sfx')
    · exact within_span_body (by ord) (.tok (by ord)) hb (by sfx')
    · unfold LClaim at *; subtrees; all_goals lkid
  case dot hd _ hk ih =>
    refine LClaim.mk _ rfl fun hf hd' ho w => ⟨own2 (Rg.within (hd'.root ho)) ?_, ?_⟩
    · rw [hk.loc]; clear hd'; slot
    · clear hd'; unfold LClaim at *; subtrees; all_goals lkid
  case constDtor hp _ hd ih1 ih2 =>
    refine LClaim.mk _ rfl fun hf hz ho w => ?_
    clear hz
    refine ⟨own1 ?_, ?_⟩
    · exact within_span ho (hp.root ho) (hd.root (by ord)) (by sfx')
    · unfold LClaim at *; subtrees; all_goals lkid
  case headDtorInit hi _ hd ih =>
    refine LClaim.mk _ rfl fun hf hz ho w => ?_
    clear hz
    refine ⟨own2 ?_ (by slot), ?_⟩
    · exact within_span ho (.ident hi ho) (hd.root (by ord)) (by sfx')
    · unfold LClaim at *; subtrees; all_goals lkid
  case forHeadVar ih =>
    refine LClaim.mk _ rfl fun hf hz ho w => ?_
    clear hz
    refine ⟨own0, kids1 (All.mk (own1 ?_) ?_)⟩
    · exact within_span ho (.tok ho) (.tokAt ho (by sfx')) (by sfx')
    · unfold LClaim at *; subtrees; all_goals lkid
  case forHeadLet ih =>
    refine LClaim.mk _ rfl fun hf hz ho w => ?_
    clear hz
    refine ⟨own0, kids1 (All.mk (own1 ?_) ?_)⟩
    · exact within_span ho (.tok ho) (.tokAt ho (by sfx')) (by sfx')
    · unfold LClaim at *; subtrees; all_goals lkid
  case forHeadConst ih =>
    refine LClaim.mk _ rfl fun hf hz ho w => ?_
    clear hz
    refine ⟨own0, kids1 (All.mk (own1 ?_) ?_)⟩
    · exact within_span ho (.tok ho) (.tokAt ho (by sfx')) (by sfx')
    · unfold LClaim at *; subtrees; all_goals lkid
  case forHeadExpr hd _ ih =>
    refine LClaim.mk _ rfl fun hf hz ho w => ?_
    clear hz
    refine ⟨own0, kids1 (All.mk (own1 ?_) ?_)⟩
    · exact within_span ho (hd.root ho) (.tokAt ho (by sfx')) (by sfx')
    · unfold LClaim at *; subtrees; all_goals lkid
  case forInVarInit hi _ hd ih =>
    refine LClaim.mk _ rfl fun hf hz ho w => ?_
    clear hz
    refine ⟨own2 ?_ (by slot), ?_⟩
    · exact within_span ho (.tok ho) (hd.root (by ord)) (by sfx')
    · unfold LClaim at *; subtrees; all_goals lkid
  case forInVar hd ih =>
    refine LClaim.mk _ rfl fun hf hz ho w => ?_
    clear hz
    refine ⟨own1 ?_, ?_⟩
    · exact within_span ho (.tok ho) (hd.root (by ord)) (by sfx')
    · unfold LClaim at *; subtrees; all_goals lkid
  case forInLet hd ih =>
    refine LClaim.mk _ rfl fun hf hz ho w => ?_
    clear hz
    refine ⟨own1 ?_, ?_⟩
    · exact within_span ho (.tok ho) (hd.root (by ord)) (by sfx')
    · unfold LClaim at *; subtrees; all_goals lkid
  case forInConst hd ih =>
    refine LClaim.mk _ rfl fun hf hz ho w => ?_
    clear hz
    refine ⟨own1 ?_, ?_⟩
    · exact within_span ho (.tok ho) (hd.root (by ord)) (by sfx')
    · unfold LClaim at *; subtrees; all_goals lkid
  case forOfVar hd ih =>
    refine LClaim.mk _ rfl fun hf hz ho w => ?_
    clear hz
    refine ⟨own1 ?_, ?_⟩
    · exact within_span ho (.tok ho) (hd.root (by ord)) (by sfx')
    · unfold LClaim at *; subtrees; all_goals lkid
  case forOfLet hd ih =>
    refine LClaim.mk _ rfl fun hf hz ho w => ?_
    clear hz
    refine ⟨own1 ?_, ?_⟩
    · exact within_span ho (.tok ho) (hd.root (by ord)) (by sfx')
    · unfold LClaim at *; subtrees; all_goals lkid
  case forOfConst hd ih =>
    refine LClaim.mk _ rfl fun hf hz ho w => ?_
    clear hz
    refine ⟨own1 ?_, ?_⟩
    · exact within_span ho (.tok ho) (hd.root (by ord)) (by sfx')
    · unfold LClaim at *; subtrees; all_goals lkid
  case breakLabel hi _ _ hl =>
    refine LClaim.mk _ rfl fun hf hd ho w => ⟨own2 hl.within ?_, kids0⟩
    rw [hi.loc]; exact ho.mem (by simp)
  case continueLabel hi _ _ hl =>
    refine LClaim.mk _ rfl fun hf hd ho w => ⟨own2 hl.within ?_, kids0⟩
    rw [hi.loc]; exact ho.mem (by simp)
  case paramsNil =>
    refine fun ho => ⟨fun h => (by cases h), fun _ => ⟨fun w => ?_, own0⟩⟩
    subtrees; all_goals lkid
  case paramsRest hp hl ih =>
    refine fun ho => ⟨fun h => (by cases h), fun _ => ⟨fun w => ?_, own0⟩⟩
    unfold LClaim at *; subtrees; all_goals lkid
  case paramsLast ih =>
    refine fun ho => ⟨fun h => (by cases h), fun _ => ⟨fun w => ?_, own0⟩⟩
    unfold LClaim at *; subtrees; all_goals lkid
  case paramsCons ih1 ih2 =>
    refine fun ho => ⟨fun h => (by cases h), fun _ => ⟨fun w => ?_, own0⟩⟩
    have h2 := (ih2 (by ord)).part rfl
    refine kids2 (All.mk own0 (kids2 ((ih1 ho).final rfl w) ?_)) ?_
    · exact h2.1 w _ (.head _)
    · exact h2.1 w _ (.tail _ (.head _))
  case params hl ih =>
    refine LClaim.mk _ rfl fun hf hd ho w => ⟨own1 hl.within, ?_⟩
    have h2 := (ih (by clear hd; ord)).part rfl
    refine kids2 ?_ ?_
    · exact h2.1 w _ (.head _)
    · exact h2.1 w _ (.tail _ (.head _))
  case directive hl hd ih =>
    refine fun ho => ⟨fun h => (by cases h), fun hp => ?_⟩
    obtain ⟨h1, h2⟩ := (ih (by ord)).part hp
    exact ⟨fun w => h1 w, List.forall_mem_cons.2 ⟨hl.within, h2⟩⟩
  case prologueEnd ih =>
    refine fun ho => ⟨fun h => (by cases h), fun hp => ⟨fun w => ?_, own0⟩⟩
    exact kids1 ((ih ho).final hp w)
  case body hl ih =>
    refine LClaim.mk _ rfl fun hf hd ho w => ?_
    obtain ⟨h1, h2⟩ := (ih ho).part hf
    exact ⟨List.forall_mem_cons.2 ⟨hl.within, h2⟩, h1 w⟩
  case declFun hl ih =>
    refine LClaim.mk _ rfl fun hf hd ho w => ⟨own0, kids1 (All.mk (own1 hl.within) ?_)⟩
    exact ((ih ho).final rfl w).kids
  all_goals
    first
    | (refine LClaim.mk _ rfl fun hf hd ho w => ⟨?_, ?_⟩
       focus first
         | exact own0
         | exact own1 (Rg.within (hd.root ho))
         | (refine own2 (Rg.within (hd.root ho)) ?_; clear hd; slot)
         | exact own1 (St.within (hd.root ho))
         | (refine own2 (St.within (hd.root ho)) ?_; clear hd; slot)
         | (clear hd; slots)
       focus
         (clear hd
          unfold LClaim at *
          subtrees
          all_goals lkid))
    | (rename_i ih
       exact fun ho => ⟨fun hf w => (ih (by ord)).final rfl w, fun h => by cases h⟩)

theorem Grammar.Derives.locs (h : Derives (Located S) env nt inp rest x) (ho : Ordered S inp)
    (hf : nt.final = true) (w : Place) : All w ⟨c, x⟩ (LocOk S) := (h.lclaim ho).final hf w

end Everywhere

end Esprit
