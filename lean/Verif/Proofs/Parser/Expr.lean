import Verif.Proofs.Parser.Function
import Verif.Proofs.Stack

/-! Expressions. -/

set_option linter.unusedSectionVars false
set_option linter.unusedVariables false

namespace Esprit

open Lex ReaderSpec Grammar

variable {S : Str} {env : Scope}

/-! ### Binary expressions -/

/-- The token of an infix operator. -/
def InfixTok (env : Scope) (t : Token) : Infix → Prop
  | .binop op => IsBinop env t op
  | .logop op => IsLogop t op

/-- Operands and operators. -/
inductive Seg (S : Str) (env : Scope) : List (Expr ⊕ Infix) → List Token → List Token → Prop where
  | nil {i : List Token} : Seg S env [] i i
  | operand {xs : List (Expr ⊕ Infix)} {i m r : List Token} {e : Expr} :
      Derives (Located S) env .unary i m e → Seg S env xs m r → Seg S env (.inl e :: xs) i r
  | op {xs : List (Expr ⊕ Infix)} {i r : List Token} {t : Token} {op : Infix} :
      InfixTok env t op → Seg S env xs i r → Seg S env (.inr op :: xs) (t :: i) r

theorem Seg.append {xs ys : List (Expr ⊕ Infix)} {i r : List Token} :
    Seg S env (xs ++ ys) i r ↔ ∃ m, Seg S env xs i m ∧ Seg S env ys m r := by
  constructor
  · intro h
    induction xs generalizing i with
    | nil => exact ⟨i, .nil, h⟩
    | cons x xs ih =>
      cases h with
      | operand h1 h2 =>
        obtain ⟨m, h3, h4⟩ := ih h2
        exact ⟨m, .operand h1 h3, h4⟩
      | op h1 h2 =>
        obtain ⟨m, h3, h4⟩ := ih h2
        exact ⟨m, .op h1 h3, h4⟩
  · rintro ⟨m, h1, h2⟩
    induction h1 with
    | nil => exact h2
    | operand h3 _ ih => exact .operand h3 (ih h2)
    | op h3 _ ih => exact .op h3 (ih h2)

theorem binary_down {i r : List Token} {e : Expr} {k : Nat} (hk : k ≤ 10)
    (h : Derives (Located S) env (.binary k) i r e) : ∀ j ≤ k, Derives (Located S) env (.binary j) i r e := by
  induction k with
  | zero =>
    intro j hj
    cases Nat.le_zero.1 hj
    exact h
  | succ k ih =>
    intro j hj
    by_cases hjk : j = k + 1
    · subst hjk; exact h
    · exact ih (by omega) (.binaryUp (by omega) h) j (by omega)

theorem Infix.level_le9 (op : Infix) : op.level ≤ 9 := by
  cases op with
  | binop op => obtain ⟨l, t⟩ := op; cases t <;> exact Nat.le_of_ble_eq_true rfl
  | logop op => obtain ⟨l, t⟩ := op; cases t <;> exact Nat.le_of_ble_eq_true rfl

theorem derives_tree {T : OpTree} (hg : T.Grouped) : ∀ {i r : List Token},
    Seg S env T.tape i r → ∀ k ≤ 10, (∀ o ∈ T.ops, k ≤ o.level) →
    Derives (Located S) env (.binary k) i r T.toExpr := by
  induction hg with
  | leaf =>
    intro i r h k hk _
    cases h with
    | operand h1 h2 =>
      cases h2
      exact binary_down (Nat.le_refl _) (.binaryUnary h1) k hk
  | @node l r' op _ _ hl hr ihl ihr =>
    intro i r h k hk ho
    obtain ⟨m, h1, h2⟩ := Seg.append.1 h
    have hk' : k ≤ op.level := ho op (by simp [OpTree.ops])
    have h9 := op.level_le9
    cases h2 with
    | op h3 h4 =>
      have dl := ihl h1 op.level (by omega) hl
      have dr := ihr h4 (op.level + 1) (by omega) hr
      cases op with
      | binop op => exact binary_down (by omega) (.binop dl h3 dr) k hk'
      | logop op => exact binary_down (by omega) (.logop dl h3 dr) k hk'

theorem toBinop_ok {t : Token} {b : Bool} {op : Op BinopTag} (h : t.toBinop b = some op)
    (hb : b = env.allowIn) : IsBinop env t op := by
  unfold Token.toBinop at h
  cases hv : t.value.toBinopTag b with
  | none => rw [hv] at h; cases h
  | some tag =>
    rw [hv] at h
    cases h
    refine ⟨rfl, ?_, ?_⟩
    · revert hv
      cases t.value with
      | reserved w =>
        cases w <;> simp [TokenData.toBinopTag]
        · rintro rfl rfl; simp [IsSymbol, punctuators, reservedWords, BinopTag.display]
        · rintro rfl; simp [IsSymbol, punctuators, reservedWords, BinopTag.display]
      | _ =>
        simp [TokenData.toBinopTag] <;>
          (rintro rfl; simp [IsSymbol, punctuators, reservedWords, BinopTag.display])
    · rintro htag
      simp only at htag
      subst htag
      revert hv
      cases t.value with
      | reserved w => cases w <;> simp [TokenData.toBinopTag, ← hb]
      | _ => simp [TokenData.toBinopTag]

theorem toLogop_ok {t : Token} {op : Op LogopTag} (h : t.toLogop = some op) : IsLogop t op := by
  unfold Token.toLogop at h
  cases hv : t.value.toLogopTag with
  | none => rw [hv] at h; cases h
  | some tag =>
    rw [hv] at h
    cases h
    refine ⟨rfl, ?_⟩
    revert hv
    cases t.value <;> simp [TokenData.toLogopTag] <;>
      (rintro rfl; simp [IsSymbol, punctuators, reservedWords, LogopTag.display])

theorem toAssop_ok {t : Token} {op : Op AssopTag} (h : t.toAssop = some op) : IsAssop t op := by
  unfold Token.toAssop at h
  cases hv : t.value.toAssopTag with
  | none => rw [hv] at h; cases h
  | some tag =>
    rw [hv] at h
    cases h
    refine ⟨rfl, ?_⟩
    revert hv
    cases t.value <;> simp [TokenData.toAssopTag] <;>
      (rintro rfl; simp [IsSymbol, punctuators, reservedWords, AssopTag.display])

theorem unopTag_ok {v : TokenData} {tag : UnopTag} (h : P.unopTag v = some tag) :
    (∃ x, UnopTag.fromStr x = some tag ∧ IsSymbol x v) ∧ v ≠ .eof := by
  unfold P.unopTag at h
  split at h <;> cases h
  · exact ⟨⟨c!"delete", by decide, by simp [IsSymbol, punctuators, reservedWords]⟩,
      by intro h; cases h⟩
  · exact ⟨⟨c!"void", by decide, by simp [IsSymbol, punctuators, reservedWords]⟩,
      by intro h; cases h⟩
  · exact ⟨⟨c!"typeof", by decide, by simp [IsSymbol, punctuators, reservedWords]⟩,
      by intro h; cases h⟩
  · exact ⟨⟨c!"+", by decide, by simp [IsSymbol, punctuators, reservedWords]⟩,
      by intro h; cases h⟩
  · exact ⟨⟨c!"-", by decide, by simp [IsSymbol, punctuators, reservedWords]⟩,
      by intro h; cases h⟩
  · exact ⟨⟨c!"~", by decide, by simp [IsSymbol, punctuators, reservedWords]⟩,
      by intro h; cases h⟩
  · exact ⟨⟨c!"!", by decide, by simp [IsSymbol, punctuators, reservedWords]⟩,
      by intro h; cases h⟩

theorem toBinop_of {t : Token} {op : Op BinopTag} (h : IsBinop env t op) :
    t.toBinop env.allowIn = some op := by
  obtain ⟨h1, h2, h3⟩ := h
  obtain ⟨l, tag⟩ := op
  simp only at h1 h2 h3
  subst h1
  unfold Token.toBinop
  cases tag <;> simp [IsSymbol, punctuators, reservedWords, BinopTag.display] at h2 <;>
    simp [h2, TokenData.toBinopTag, h3]

theorem toLogop_of {t : Token} {op : Op LogopTag} (h : IsLogop t op) : t.toLogop = some op := by
  obtain ⟨h1, h2⟩ := h
  obtain ⟨l, tag⟩ := op
  simp only at h1 h2
  subst h1
  unfold Token.toLogop
  cases tag <;> simp [IsSymbol, punctuators, reservedWords, LogopTag.display] at h2 <;>
    simp [h2, TokenData.toLogopTag]

theorem toAssop_of {t : Token} {op : Op AssopTag} (h : IsAssop t op) : t.toAssop = some op := by
  obtain ⟨h1, h2⟩ := h
  obtain ⟨l, tag⟩ := op
  simp only at h1 h2
  subst h1
  unfold Token.toAssop
  cases tag <;> simp [IsSymbol, punctuators, reservedWords, AssopTag.display] at h2 <;>
    simp [h2, TokenData.toAssopTag]

theorem unopTag_of {t : Token} {op : Op UnopTag} (h : IsUnop t op) :
    P.unopTag t.value = some op.tag := by
  obtain ⟨-, x, h1, h2⟩ := h
  have key : ∀ p ∈ punctuators ++ reservedWords.map fun p => (p.1, .reserved p.2), ∀ tag,
      UnopTag.fromStr p.1 = some tag → P.unopTag p.2 = some tag := by decide +kernel
  exact key (x, t.value) h2 _ h1

theorem spelled_weight {x : Str} {t : Token} (h : IsSymbol x t.value) (hx : x ≠ []) :
    t.weight = 1 := by
  unfold Token.weight
  split
  · rename_i hv
    rw [hv] at h
    exact absurd h (by simp [IsSymbol, punctuators, reservedWords])
  · rfl

theorem InfixTok.weight {t : Token} {op : Infix} (h : InfixTok env t op) : t.weight = 1 := by
  cases op with
  | binop op =>
    refine spelled_weight h.2.1 ?_
    obtain ⟨l, tag⟩ := op
    cases tag <;> (intro h; cases h)
  | logop op =>
    refine spelled_weight h.2 ?_
    obtain ⟨l, tag⟩ := op
    cases tag <;> (intro h; cases h)

theorem IsAssop.weight {t : Token} {op : Op AssopTag} (h : IsAssop t op) : t.weight = 1 := by
  refine spelled_weight h.2 ?_
  obtain ⟨l, tag⟩ := op
  cases tag <;> (intro h; cases h)

namespace P

variable [Env] [LawfulEnv] {u : Bool} {n m na ni : Nat} {s s1 s2 s' : PState} {t : Token}
  {α β : Type} {r : Rec}

/-! ### Expression lists -/

theorem exprs_of_comma {i m r : List Token} {e : Expr} {xs : List Expr}
    (h1 : Derives (Located S) env .assign i m e)
    (h2 : MoreComma (fun e i r => Derives (Located S) env .assign i r e) xs m r) (hc : NextIsNot r .comma) :
    Derives (Located S) env .exprs i r (.ofList (e :: xs)) := by
  induction h2 generalizing i e with
  | nil => exact .exprsLast hc h1
  | cons hv he _ ih => exact .exprsCons h1 hv (ih he hc)

theorem wp.expression (hr : RecOk u S r na ni) (hp : Pre S env s) (ha : s.mu < na) :
    wp u (P.expression r) s (Post S env .expr 1 s) := by
  unfold P.expression
  refine (hr.assign s env hp ha).bind fun e s1 h1 => ?_
  have := h1.mu
  unfold moreExpressions
  refine (wp.peek h1.inv).bind fun t s2 h2 => ?_
  have := h2.tr.mu
  rw [eqv_plain rfl]
  refine wp.ite (fun hc => ?_) (fun hc => ?_)
  · refine (h1.trans h2.tr).mono (Nat.le_refl _) ?_
    rintro a b ⟨_, hd, rfl, r, rfl⟩
    exact .exprOne ⟨t, r, rfl, by simpa using hc⟩ hd
  · have hc : t.value = .comma := by simpa using hc
    refine (wp.moreComma (h2.tr.pre (h1.pre hp)) (b := na) (by omega) fun s' hs hb =>
      (hr.assign s' env hs hb).mono fun _ _ h => h.mono (Nat.zero_le _) fun _ _ h => h).bind ?_
    rintro _ s3 ⟨xs, rfl, h3⟩
    cases xs with
    | nil =>
      refine (wp.pure_bind ?_)
      refine (h1.trans (h2.tr.trans h3)).mono (Nat.le_add_right ..) ?_
      rintro a b ⟨_, hd, _, ⟨rfl, r, rfl⟩, hm, t', r', h', hne⟩
      cases hm
      cases h'
      exact absurd hc hne
    | cons x xs =>
      have hl : ∃ z, (e :: x :: xs).getLast? = some z ∧ (x :: xs).getLast? = some z :=
        ⟨(x :: xs).getLast (by simp), by simp [List.getLast?_eq_some_getLast],
          by simp [List.getLast?_eq_some_getLast]⟩
      obtain ⟨z, hz, hz'⟩ := hl
      have hvs : vecSpan (e :: x :: xs) = Pure.pure (spanLoc e.loc z.loc) := by
        unfold vecSpan
        simp only [List.head?_cons, hz]
      rw [hvs]
      refine (wp.pure_bind ?_)
      refine (h1.trans (h2.tr.trans h3)).mono (Nat.le_add_right ..) ?_
      rintro a b ⟨_, hd, _, ⟨rfl, _⟩, hm, hn⟩
      exact .exprSeq (exprs_of_comma hd hm hn) (by simpa using hz')

/-- An expression in parentheses. -/
def Paren (S : Str) (env : Scope) (e : Expr) (i r : List Token) : Prop :=
  ∃ t i1 t2, i = t :: i1 ∧ t.value = .lParen ∧ Derives (Located S) (env.withIn true) .expr i1 (t2 :: r) e ∧
    t2.value = .rParen

theorem wp.parenExpressionC (hr : RecOk u S r na ni) (hp : Pre S env s) (ha : s.mu ≤ na) :
    wp u (P.parenExpression r) s (fun e s' => Tr S 1 s s' (Paren S env e) ∧ Clean s') := by
  unfold P.parenExpression
  refine (wp.expect hp.inv rfl).bind ?_
  rintro t s1 ⟨hv, h1⟩
  have h1' := h1.one hv
  have := h1'.mu
  refine wp.bind (wp.allowIn (n := 1) (b := true)
    (R := fun e i r => Derives (Located S) (env.withIn true) .expr i r e)
    (h1.tr.pre hp) fun s2 hmu hla hp2 => wp.expression hr hp2 (by omega)) fun e s2 h2 => ?_
  refine (wp.expect h2.inv rfl).bind ?_
  rintro t3 s3 ⟨hv3, h3⟩
  refine ⟨(h1'.trans (h2.trans h3.zero)).mono (Nat.le_add_right ..) ?_, h3.clean⟩
  rintro a b ⟨_, rfl, _, hd, rfl⟩
  exact ⟨_, _, _, rfl, hv, hd, hv3⟩

theorem wp.parenExpression (hr : RecOk u S r na ni) (hp : Pre S env s) (ha : s.mu ≤ na) :
    wp u (P.parenExpression r) s (fun e s' => Tr S 1 s s' (Paren S env e)) :=
  (wp.parenExpressionC hr hp ha).mono fun _ _ h => h.1

/-! ### Array literals -/

theorem wp.exprListItem (hr : RecOk u S r na ni) (hp : Pre S env s) (ha : s.mu < na) :
    wp u (P.exprListItem r) s (Post S env .arg 1 s) := by
  unfold P.exprListItem
  refine (wp.peek hp.inv).bind fun t s1 h1 => ?_
  have hp1 := h1.tr.pre hp
  have := h1.tr.mu
  obtain ⟨tl, hla⟩ := h1.la
  split
  · rename_i hv
    refine (wp.spanAst (n := 1) hp1.inv (env := env) (nt := .arg) ?_).mono ?_
    · refine (wp.reread hp1.inv hla hv rfl).bind ?_
      rintro _ s2 ⟨rfl, h2⟩
      have h2' := h2.one hv
      have := h2'.mu
      refine (hr.assign s2 env (h2.tr.pre hp1) (by omega)).bind fun e s3 h3 => ?_
      refine (h2'.trans h3).mono (Nat.le_add_right ..) ?_
      rintro a b ⟨_, rfl, hd⟩ l hl
      exact .argSpread hv hd hl
    · intro x s2 h2
      refine (h1.tr.trans h2).mono (Nat.le_add_left ..) ?_
      rintro a b ⟨_, ⟨rfl, _⟩, hd⟩
      exact hd
  · refine (hr.assign s1 env hp1 (by omega)).bind fun e s2 h2 => ?_
    refine (h1.tr.trans h2).mono (Nat.le_add_left ..) ?_
    rintro a b ⟨_, ⟨rfl, _⟩, hd⟩
    exact .argExpr hd

theorem wp.arrayLiteral (hr : RecOk u S r na ni) (hp : Pre S env s) (ha : s.mu < na) :
    wp u (P.arrayLiteral r t) s (fun e s' => Tr S 0 s s' (fun i r => ∃ es t2,
      Derives (Located S) (env.withIn true) .elems i (t2 :: r) es ∧ t2.value = .rBrack ∧
      e = .eArr (spanLoc (some t.location) (some t2.location)) es) ∧ Clean s') := by
  unfold P.arrayLiteral
  refine (wp.allowInC (c := True) hp fun s1 hmu hla hp1 => ?_).mono fun _ _ h => ⟨h.1, h.2 trivial⟩
  have hloop : wp u (P.loop (arrayStep r) []) s1 (fun es s' => Tr S 0 s1 s' (fun i r =>
      Derives (Located S) (env.withIn true) .elems i r (.ofList es))) := by
    refine wp.loop (fun acc s2 => Tr S 0 s1 s2 (fun i r => ∀ rest xs,
      Derives (Located S) (env.withIn true) .elems r rest xs →
      Derives (Located S) (env.withIn true) .elems i rest (.ofList (acc ++ xs.toList)))) ?_ ?_
    · refine (Tr.refl hp1.inv).imp ?_
      rintro a b rfl rest xs h
      simpa [Ast.ofList_toList] using h
    · intro acc s2 h2
      have hmu2 := h2.mu
      unfold arrayStep
      refine (wp.peek h2.inv).bind fun t' s3 h3 => ?_
      have hp3 := h3.tr.pre (h2.pre hp1)
      have hmu3 := h3.tr.mu
      rw [eqv_plain rfl]
      refine wp.ite (fun hc => ?_) (fun hc => ?_)
      · refine (h2.trans h3.tr).mono (Nat.zero_le _) ?_
        rintro a b ⟨_, hr, rfl, _⟩
        simpa using hr _ .nil .elemsNil
      · unfold arrayElement
        have helem : wp u (do
            let t ← P.peek
            if t.value.eqv .comma then Pure.pure Ast.none
            else do
              let i ← P.exprListItem r
              Pure.pure (Ast.some i)) s3 (fun x s4 =>
            (x = .none ∧ Tr S 0 s3 s4 (fun i r => i = r ∧ NextIs i .comma)) ∨
            ∃ y, x = .some y ∧ Tr S 1 s3 s4 (fun i r => Derives (Located S) (env.withIn true) .arg i r y)) := by
          refine (wp.peek h3.tr.inv).bind fun t' s4 h4 => ?_
          have hmu4 := h4.tr.mu
          rw [eqv_plain rfl]
          refine wp.ite (fun hc => .inl ⟨rfl, ?_⟩) (fun hc => ?_)
          · refine h4.tr.imp ?_
            rintro a b ⟨rfl, r, rfl⟩
            exact ⟨rfl, _, _, rfl, by simpa using hc⟩
          · refine (wp.exprListItem hr (h4.tr.pre hp3) (by omega)).bind fun y s5 h5 => ?_
            refine .inr ⟨y, rfl, (h4.tr.trans h5).mono (Nat.le_add_left ..) ?_⟩
            rintro a b ⟨_, ⟨rfl, _⟩, hd⟩
            exact hd
        refine helem.bind ?_
        rintro x s4 (⟨rfl, h4⟩ | ⟨y, rfl, h4⟩)
        · refine (wp.matches h4.inv rfl).bind ?_
          have hmu4 := h4.mu
          rintro b s5 ⟨t5, ⟨rfl, hv5, h5⟩ | ⟨rfl, hv5, h5⟩⟩
          · have hmu5 := (h5.one hv5).mu
            refine ⟨(h2.trans (h3.tr.trans (h4.trans h5.zero))).mono (Nat.zero_le _) ?_, by omega⟩
            rintro a b ⟨_, hr, _, ⟨rfl, _⟩, _, ⟨rfl, _⟩, rfl⟩ rest xs hd
            simpa using hr _ _ (.elemsHole hv5 hd)
          · refine (h2.trans (h3.tr.trans (h4.trans h5.tr))).mono (Nat.zero_le _) ?_
            rintro a b ⟨_, hr, _, ⟨rfl, _⟩, _, ⟨rfl, t6, r6, h6, hv6⟩, rfl, r, rfl⟩
            cases h6
            exact absurd hv6 hv5
        · refine (wp.matches h4.inv rfl).bind ?_
          have hmu4 := h4.mu
          rintro b s5 ⟨t5, ⟨rfl, hv5, h5⟩ | ⟨rfl, hv5, h5⟩⟩
          · have hmu5 := (h5.one hv5).mu
            refine ⟨(h2.trans (h3.tr.trans (h4.trans h5.zero))).mono (Nat.zero_le _) ?_, by omega⟩
            rintro a b ⟨_, hr, _, ⟨rfl, _⟩, _, hy, rfl⟩ rest xs hd
            simpa using hr _ _ (.elemsCons hy hv5 hd)
          · refine (h2.trans (h3.tr.trans (h4.trans h5.tr))).mono (Nat.zero_le _) ?_
            rintro a b ⟨_, hr, _, ⟨rfl, _⟩, _, hy, rfl, r, rfl⟩
            simpa using hr _ _ (.elemsLast hy)
  refine hloop.bind fun es s2 h2 => ?_
  refine (wp.expect h2.inv rfl).bind ?_
  rintro t3 s3 ⟨hv3, h3⟩
  refine ⟨(h2.trans h3.zero).mono (Nat.le_refl _) ?_, fun _ => h3.clean⟩
  rintro a b ⟨_, hd, rfl⟩
  exact ⟨_, _, hd, hv3, rfl⟩

/-! ### Object literals -/

theorem wp.propertyKeyOpt (hs : Inv S s) :
    wp u P.propertyKeyOpt s (fun k s' => match k with
      | some k => ∃ t, PropName t k ∧ Tr S 1 s s' (Cons t)
      | none => ∃ t, PeekPost S s t s' ∧ ∀ k, ¬ PropName t k) := by
  unfold P.propertyKeyOpt
  refine (wp.read hs).bind fun t s1 h1 => ?_
  split
  · rename_i hv; exact ⟨t, .id hv, h1.one hv⟩
  · rename_i hv; exact ⟨t, .word hv, h1.one hv⟩
  · rename_i hv; exact ⟨t, .string hv, h1.one hv⟩
  · rename_i hv; exact ⟨t, .number hv, h1.one hv⟩
  · rename_i hv1 hv2 hv3 hv4
    refine wp.bind (wp.unread (Q := fun _ s3 => s3 = s1.push t) (h1.la1 hs) rfl) ?_
    rintro _ _ rfl
    refine ⟨t, h1.back (h1.la1 hs), ?_⟩
    intro k hk
    cases hk with
    | id h => exact hv1 _ h
    | word h => exact hv2 _ h
    | string h => exact hv3 _ h
    | number h => exact hv4 _ h

theorem wp.propertyKey (hs : Inv S s) :
    wp u P.propertyKey s (fun k s' => ∃ t, PropName t k ∧ Tr S 1 s s' (Cons t)) := by
  unfold P.propertyKey
  refine (wp.propertyKeyOpt hs).bind ?_
  rintro (_ | k) s1 h
  · obtain ⟨t, h, -⟩ := h
    obtain ⟨tl, hla⟩ := h.la
    exact wp.unexpected h.tr.inv hla
  · exact h

/-- The tokens of a property that starts with a reserved word continue it. -/
def WordOk (t : Token) (i : List Token) : Prop :=
  ∀ w, t.value = .reserved w → ¬ (NextIs i .comma ∨ NextIs i .rBrace)

theorem wp.morePropInit (hr : RecOk u S r na ni) {k : PropKey} (hk : PropName t k)
    (hp : Pre S env s) (ha : s.mu ≤ na) (hi : s.mu ≤ ni) :
    wp u (P.morePropInit r k) s (fun p s' => Tr S 0 s s' (fun i r =>
      WordOk t i → Derives (Located S) env .prop (t :: i) r p)) := by
  unfold P.morePropInit
  refine (wp.peek hp.inv).bind fun t1 s1 h1 => ?_
  have hp1 := h1.tr.pre hp
  have hmu1 := h1.tr.mu
  obtain ⟨tl, hla⟩ := h1.la
  have short : t1.value = .comma ∨ t1.value = .rBrace → wp u (match k with
      | .id location name =>
        match location with
        | some location => do
          let i ← P.newId false (Name.from name) location
          Pure.pure (Ast.prShorthand i)
        | none => P.panic .unwrapNone
      | _ => P.unexpected) s1 (fun p s' => Tr S 0 s s' (fun i r =>
      WordOk t i → Derives (Located S) env .prop (t :: i) r p)) := by
    intro hv1
    have hn : ∀ r, NextIs (t1 :: r) .comma ∨ NextIs (t1 :: r) .rBrace := fun r => by
      rcases hv1 with h | h
      · exact .inl ⟨_, _, rfl, h⟩
      · exact .inr ⟨_, _, rfl, h⟩
    cases hk with
    | @id n hv =>
      refine (wp.newId hp1).bind ?_
      rintro _ s2 ⟨rfl, hid, h2⟩
      refine (h1.tr.trans (h2.tr h1.tr.inv)).imp ?_
      rintro a b ⟨_, ⟨rfl, r, rfl⟩, rfl⟩ _
      exact .propShorthand hv hid (hn r)
    | @word w hv =>
      refine (wp.newId hp1).bind ?_
      rintro _ s2 ⟨rfl, hid, h2⟩
      refine (h1.tr.trans (h2.tr h1.tr.inv)).imp ?_
      rintro a b ⟨_, ⟨rfl, r, rfl⟩, rfl⟩ hw
      exact absurd (hn r) (hw w hv)
    | string hv => exact wp.unexpected h1.tr.inv hla
    | number hv => exact wp.unexpected h1.tr.inv hla
  split
  · rename_i hv
    refine (wp.skipLa hp1.inv hla).bind fun _ s2 h2 => ?_
    have h2' := h2.one hv
    have hmu2 := h2'.mu
    refine wp.bind (wp.allowIn (n := 1) (b := true)
      (R := fun e i r => Derives (Located S) (env.withIn true) .assign i r e)
      (h2.tr.pre hp1) fun s3 hmu hla hp3 => hr.assign s3 _ hp3 (by omega)) fun e s3 h3 => ?_
    refine (h1.tr.trans (h2'.trans h3)).mono (Nat.zero_le _) ?_
    rintro a b ⟨_, ⟨rfl, _⟩, _, rfl, hd⟩ _
    exact .propInit hk hv hd
  · refine (wp.formalParameters hp1).bind fun ps s2 h2 => ?_
    have := h2.mu
    refine (wp.functionBody hr (h2.pre hp1) (by omega)).bind fun b s3 h3 => ?_
    refine (h1.tr.trans (h2.trans h3)).mono (Nat.zero_le _) ?_
    rintro a b ⟨_, ⟨rfl, _⟩, _, hps, hb⟩ _
    exact .propMethod hk hps hb
  · exact short (.inl ‹_›)
  · exact short (.inr ‹_›)
  · exact wp.unexpected h1.tr.inv hla

end P

end Esprit
