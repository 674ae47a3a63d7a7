import Verif.Proofs.Parser.Lhs

/-! Unary, binary, conditional and assignment expressions. -/

set_option linter.unusedSectionVars false
set_option linter.unusedVariables false

namespace Esprit

open Lex ReaderSpec Grammar

namespace P

variable [Env] [LawfulEnv] {S : Str} {env : Scope} {u : Bool} {n m na ni : Nat}
  {s s1 s2 s' : PState} {t : Token} {α β : Type} {r : Rec}

/-- The token is the prefix. -/
def PrefixTok (t : Token) : Prefix → Prop
  | .unop op => IsUnop t op
  | .inc l => t.value = .inc ∧ l = t.location
  | .dec l => t.value = .dec ∧ l = t.location

theorem wp.matchPrefix (hs : Inv S s) :
    wp u P.matchPrefix s (fun o s' => match o with
      | some p => ∃ t, PrefixTok t p ∧ Tr S 1 s s' (Cons t)
      | none => Tr S 0 s s' (fun i r => i = r)) := by
  unfold P.matchPrefix
  refine (wp.read hs).bind fun t s1 h1 => ?_
  split
  · exact ⟨t, ⟨‹_›, rfl⟩, h1.one ‹_›⟩
  · exact ⟨t, ⟨‹_›, rfl⟩, h1.one ‹_›⟩
  · refine wp.bind (wp.unread (Q := fun _ s3 => s3 = s1.push t) (h1.la1 hs) rfl) ?_
    rintro _ _ rfl
    have h2 := h1.back (h1.la1 hs)
    unfold P.matchUnop
    refine wp.bind (Q := fun (o : Option (Op UnopTag)) s' => match o with
      | some op => ∃ t, IsUnop t op ∧ Tr S 1 s s' (Cons t)
      | none => Tr S 0 s s' (fun i r => i = r)) ?_ ?_
    · refine (wp.read h2.tr.inv).bind fun t3 s3 h3 => ?_
      split
      · rename_i tag htag
        obtain ⟨hsp, hne⟩ := unopTag_ok htag
        refine ⟨t3, ⟨rfl, hsp⟩, (h2.tr.trans (h3.one rfl hne)).mono (Nat.le_add_left ..) ?_⟩
        rintro a b ⟨_, ⟨rfl, _⟩, h⟩
        exact h
      · refine wp.bind (wp.unread (Q := fun _ s4 => s4 = s3.push t3) (h3.la1 h2.tr.inv) rfl) ?_
        rintro _ _ rfl
        refine (h2.tr.trans (h3.back (h3.la1 h2.tr.inv)).tr).mono (Nat.zero_le _) ?_
        rintro a b ⟨_, ⟨rfl, _⟩, rfl, _⟩
        rfl
    · rintro (_ | op) s3 h3
      · exact h3
      · exact h3

/-- The tokens of a list of prefixes. -/
inductive PrefixToks : List Token → List Prefix → Prop where
  | nil : PrefixToks [] []
  | cons {t : Token} {p : Prefix} {ts : List Token} {ps : List Prefix} : PrefixTok t p →
      PrefixToks ts ps → PrefixToks (t :: ts) (p :: ps)

theorem PrefixToks.append {ts ts' : List Token} {ps ps' : List Prefix} (h : PrefixToks ts ps)
    (h' : PrefixToks ts' ps') : PrefixToks (ts ++ ts') (ps ++ ps') := by
  induction h with
  | nil => exact h'
  | cons hp _ ih => exact .cons hp ih

theorem PrefixToks.reverse {ts : List Token} {ps : List Prefix} (h : PrefixToks ts ps) :
    PrefixToks ts.reverse ps.reverse := by
  induction h with
  | nil => exact .nil
  | cons hp _ ih =>
    simp only [List.reverse_cons]
    exact ih.append (.cons hp .nil)

theorem wp.toTarget {e : Expr} :
    wp u (P.toTarget e) s (fun x s' => Patt.sourceTarget x = e ∧ s' = s) := by
  unfold P.toTarget
  split
  · rename_i h; exact ⟨(Cover.target_ok h).1, rfl⟩
  · trivial

theorem wp.toPatt {e : Expr} :
    wp u (P.toPatt e) s (fun x s' => Patt.sourceExpr x = e ∧ s' = s ∧ Patt.Assignable e) := by
  unfold P.toPatt
  split
  · rename_i h; exact ⟨(Cover.cover_ok e).back _ h, rfl, (Cover.cover_ok e).sound _ h⟩
  · trivial

theorem wp.applyPrefixes : ∀ (ps : List Prefix) (arg : Expr) (s : PState),
    wp u (P.applyPrefixes ps arg) s (fun e s' => s' = s ∧ ∀ ts i0 rest, PrefixToks ts ps →
      Derives (Located S) env .unary i0 rest arg → Derives (Located S) env .unary (ts.reverse ++ i0) rest e) := by
  intro ps
  induction ps with
  | nil =>
    intro arg s
    refine ⟨rfl, ?_⟩
    rintro _ i0 rest ⟨⟩ h
    exact h
  | cons p ps ih =>
    intro arg s
    cases p with
    | unop op =>
      refine (ih _ s).mono ?_
      rintro e s' ⟨rfl, h⟩
      refine ⟨rfl, ?_⟩
      rintro _ i0 rest (⟨⟩ | ⟨hp, ht⟩) hd
      simpa using h _ _ _ ht (.unop hp hd)
    | inc l =>
      refine wp.toTarget.bind ?_
      rintro x s1 ⟨rfl, rfl⟩
      refine (ih _ s1).mono ?_
      rintro e s' ⟨rfl, h⟩
      refine ⟨rfl, ?_⟩
      rintro _ i0 rest (⟨⟩ | ⟨⟨hp, rfl⟩, ht⟩) hd
      simpa using h _ _ _ ht (.preInc hp hd)
    | dec l =>
      refine wp.toTarget.bind ?_
      rintro x s1 ⟨rfl, rfl⟩
      refine (ih _ s1).mono ?_
      rintro e s' ⟨rfl, h⟩
      refine ⟨rfl, ?_⟩
      rintro _ i0 rest (⟨⟩ | ⟨⟨hp, rfl⟩, ht⟩) hd
      simpa using h _ _ _ ht (.preDec hp hd)

/-- The token is the postfix operator. -/
def PostfixTok (t : Token) : Postfix → Prop
  | .inc l => t.value = .inc ∧ l = t.location ∧ t.newline = false
  | .dec l => t.value = .dec ∧ l = t.location ∧ t.newline = false

theorem wp.matchPostfixOperatorOpt (hs : Inv S s) (hc : Clean s) :
    wp u P.matchPostfixOperatorOpt s (fun o s' => Clean s' ∧ match o with
      | some p => ∃ t, PostfixTok t p ∧ Tr S 0 s s' (Cons t)
      | none => Tr S 0 s s' (fun i r => i = r ∧ NoPostfix r)) := by
  unfold P.matchPostfixOperatorOpt
  refine (wp.readOpC hs).bind ?_
  rintro t s1 ⟨h1, hnr⟩
  have back : (t.value = .inc ∨ t.value = .dec → t.newline = true) →
      wp u (do P.unread t; Pure.pure (none : Option Postfix)) s1
      (fun o s' => Clean s' ∧ match o with
      | some p => ∃ t, PostfixTok t p ∧ Tr S 0 s s' (Cons t)
      | none => Tr S 0 s s' (fun i r => i = r ∧ NoPostfix r)) := by
    intro hx
    refine wp.bind (wp.unread (Q := fun _ s3 => s3 = s1.push t) (h1.la1 hs) rfl) ?_
    rintro _ _ rfl
    have h2 := (h1.back (h1.la1 hs)).tr
    refine ⟨h2.inv.clean rfl (hnr hc), h2.imp ?_⟩
    rintro a b ⟨rfl, r, rfl⟩
    exact ⟨rfl, t, r, rfl, hx⟩
  refine wp.ite (fun hc => ?_) (fun hc => back fun _ => by simpa using hc)
  have hn : t.newline = false := by simpa using hc
  split
  · exact ⟨h1.clean, t, ⟨‹_›, rfl, hn⟩, h1.zero⟩
  · exact ⟨h1.clean, t, ⟨‹_›, rfl, hn⟩, h1.zero⟩
  · rename_i hv1 hv2
    exact back fun h => h.elim (absurd · hv1) (absurd · hv2)

theorem wp.unaryExpression (hr : RecOk u S r na ni) (hp : Pre S env s) (ha : s.mu ≤ na)
    (hi : s.mu ≤ ni) : wp u (P.unaryExpression r) s (fun e s' => Clean s' ∧
      Post S env .unary 1 s e s') := by
  unfold P.unaryExpression
  have hl : wp u (P.loop prefixStep []) s (fun ps s' => ∃ ts, PrefixToks ts ps ∧
      Tr S 0 s s' (fun i r => i = ts ++ r)) := by
    refine wp.loop (fun ps s' => ∃ ts, PrefixToks ts ps ∧ Tr S 0 s s' (fun i r => i = ts ++ r)) ?_ ?_
    · exact ⟨[], .nil, (Tr.refl hp.inv).imp (by rintro a b rfl; rfl)⟩
    · rintro ps s1 ⟨ts, ht, h1⟩
      unfold prefixStep
      refine (wp.matchPrefix h1.inv).bind ?_
      rintro (_ | p) s2 h2
      · refine ⟨ts, ht, (h1.trans h2).imp ?_⟩
        rintro a b ⟨_, rfl, rfl⟩
        rfl
      · obtain ⟨t, hpt, h2⟩ := h2
        have := h2.mu
        refine ⟨⟨ts ++ [t], ht.append (.cons hpt .nil), (h1.trans h2).mono (Nat.zero_le _) ?_⟩,
          by omega⟩
        rintro a b ⟨_, rfl, rfl⟩
        simp
  refine hl.bind ?_
  rintro ps s1 ⟨ts, ht, h1⟩
  have := h1.mu
  refine (wp.lhsExpression hr (h1.pre hp) (by omega) (by omega)).bind ?_
  rintro arg s2 ⟨hc2, h2⟩
  refine (wp.matchPostfixOperatorOpt h2.inv hc2).bind ?_
  rintro po s3 ⟨hc3, h3⟩
  have h4 : wp u (P.applyPostfix po arg) s3 (fun e s' => Clean s' ∧ Tr S 1 s s' (fun i r => ∃ i0,
      i = ts ++ i0 ∧ Derives (Located S) env .unary i0 r e)) := by
    unfold P.applyPostfix
    cases po with
    | none =>
      refine ⟨hc3, (h1.trans (h2.trans h3)).mono (by omega) ?_⟩
      rintro a b ⟨_, rfl, _, ⟨hx, hd⟩, rfl, hn⟩
      exact ⟨_, rfl, .unaryPostfix (.postfixNone hx hn hd)⟩
    | some po =>
      obtain ⟨t, hpt, h3⟩ := h3
      cases po with
      | inc l =>
        obtain ⟨hv, rfl, hn⟩ := hpt
        refine wp.toTarget.bind ?_
        rintro x s4 ⟨rfl, rfl⟩
        refine ⟨hc3, (h1.trans (h2.trans h3)).mono (by omega) ?_⟩
        rintro a b ⟨_, rfl, _, ⟨-, hd⟩, rfl⟩
        exact ⟨_, rfl, .unaryPostfix (.postInc hd hv hn)⟩
      | dec l =>
        obtain ⟨hv, rfl, hn⟩ := hpt
        refine wp.toTarget.bind ?_
        rintro x s4 ⟨rfl, rfl⟩
        refine ⟨hc3, (h1.trans (h2.trans h3)).mono (by omega) ?_⟩
        rintro a b ⟨_, rfl, _, ⟨-, hd⟩, rfl⟩
        exact ⟨_, rfl, .unaryPostfix (.postDec hd hv hn)⟩
  refine h4.bind ?_
  rintro e s4 ⟨hc4, h4⟩
  refine (wp.applyPrefixes (S := S) (env := env) ps.reverse e s4).mono ?_
  rintro e' s5 ⟨rfl, h⟩
  refine ⟨hc4, h4.imp ?_⟩
  rintro a b ⟨i0, rfl, hd⟩
  simpa using h _ _ _ ht.reverse hd

theorem wp.matchInfix (hp : Pre S env s) (hc : Clean s) :
    wp u P.matchInfix s (fun o s' => Clean s' ∧ match o with
      | some op => ∃ t, InfixTok env t op ∧ Tr S 1 s s' (Cons t)
      | none => Tr S 0 s s' (fun i r => i = r ∧ NoInfix env r)) := by
  unfold P.matchInfix
  refine (wp.readOpC hp.inv).bind ?_
  rintro t s1 ⟨h1, hnr⟩
  have hp1 := h1.tr.pre hp
  have fin : ∀ op, InfixTok env t op → Tr S 1 s s1 (Cons t) := fun op h =>
    h1.tr.mono (by rw [InfixTok.weight h]; exact Nat.le_refl 1) fun _ _ h => h
  refine wp.get_bind ?_
  split
  · rename_i op hop
    have h : InfixTok env t (.binop op) := toBinop_ok hop hp1.env.allowIn
    exact ⟨h1.clean, t, h, fin _ h⟩
  · rename_i hb
    split
    · rename_i op hop
      have h : InfixTok env t (.logop op) := toLogop_ok hop
      exact ⟨h1.clean, t, h, fin _ h⟩
    · rename_i hl
      refine wp.bind (wp.unread (Q := fun _ s3 => s3 = s1.push t) (h1.la1 hp.inv) rfl) ?_
      rintro _ _ rfl
      have h2 := (h1.back (h1.la1 hp.inv)).tr
      refine ⟨h2.inv.clean rfl (hnr hc), h2.imp ?_⟩
      rintro a b ⟨rfl, r, rfl⟩
      refine ⟨rfl, t, r, rfl, fun op h => ?_, fun op h => ?_⟩
      · have := toBinop_of h
        rw [← hp1.env.allowIn, hb] at this
        cases this
      · have := toLogop_of h
        rw [hl] at this
        cases this

theorem wp.moreInfixExpressions (hr : RecOk u S r na ni) {left : Expr} (hp : Pre S env s)
    (hc : Clean s) (ha : s.mu ≤ na) (hi : s.mu ≤ ni) :
    wp u (P.moreInfixExpressions r left) s (fun e s' => Clean s' ∧ Tr S 0 s s' (fun i r => NoInfix env r ∧ ∀ i0,
      Derives (Located S) env .unary i0 i left → Derives (Located S) env (.binary 0) i0 r e)) := by
  unfold P.moreInfixExpressions
  have hl : wp u (P.loop (infixStep r) ([], left)) s (fun st s' => ∃ rest : List (Infix × Expr),
      st = rest.foldl (fun (st : Stack × Expr) p => (st.1.extend st.2 p.1, p.2)) ([], left) ∧
      Clean s' ∧ Tr S 0 s s' (fun i r => NoInfix env r ∧
        Seg S env (rest.flatMap fun p => [.inr p.1, .inl p.2]) i r)) := by
    refine wp.loop (fun st s' => ∃ rest : List (Infix × Expr),
      st = rest.foldl (fun (st : Stack × Expr) p => (st.1.extend st.2 p.1, p.2)) ([], left) ∧
      Clean s' ∧ Tr S 0 s s' (Seg S env (rest.flatMap fun p => [.inr p.1, .inl p.2]))) ?_ ?_
    · exact ⟨[], rfl, hc, (Tr.refl hp.inv).imp (by rintro a b rfl; exact .nil)⟩
    · rintro st s1 ⟨rest, hst, hc1, h1⟩
      have := h1.mu
      unfold infixStep
      refine (wp.matchInfix (h1.pre hp) hc1).bind ?_
      rintro (_ | op) s2 ⟨hc2, h2⟩
      · refine ⟨rest, hst, hc2, (h1.trans h2).imp ?_⟩
        rintro a b ⟨_, hs, rfl, hn⟩
        exact ⟨hn, hs⟩
      · obtain ⟨t, hop, h2⟩ := h2
        have := h2.mu
        refine (wp.unaryExpression hr (h2.pre (h1.pre hp)) (by omega) (by omega)).bind ?_
        rintro e s3 ⟨hc3, h3⟩
        have := h3.mu
        refine ⟨⟨rest ++ [(op, e)], ?_, hc3, (h1.trans (h2.trans h3)).mono (Nat.zero_le _) ?_⟩, by omega⟩
        · rw [List.foldl_append, ← hst]; rfl
        · rintro a b ⟨_, hs, _, rfl, hd⟩
          rw [List.flatMap_append]
          exact Seg.append.2 ⟨_, hs, .op hop (.operand hd .nil)⟩
  refine hl.bind ?_
  rintro st s1 ⟨rest, rfl, hc1, h1⟩
  refine ⟨hc1, h1.imp ?_⟩
  rintro i b ⟨hn, hs⟩
  refine ⟨hn, fun i0 hd => ?_⟩
  obtain ⟨T, hT, hg, htape⟩ := OpTree.parseInfix_spec left rest
  have := derives_tree (S := S) (env := env) hg (i := i0) (r := b) (by
    rw [htape]
    exact .operand hd hs) 0 (by omega) (fun _ _ => Nat.zero_le _)
  rw [← hT] at this
  exact this

theorem wp.moreConditional (hr : RecOk u S r na ni) {left : Expr} (hp : Pre S env s)
    (hc : Clean s) (ha : s.mu ≤ na) :
    wp u (P.moreConditional r left) s (fun e s' => Tr S 0 s s' (fun i r => ∀ i0,
      NoInfix env i → Derives (Located S) env (.binary 0) i0 i left → Derives (Located S) env .cond i0 r e)) := by
  unfold P.moreConditional
  refine (wp.matchesOpC hp.inv hc rfl).bind ?_
  rintro _ s1 ⟨t, ⟨rfl, hv, h1⟩ | ⟨rfl, hv, hnr, h1⟩⟩
  · have h1' := h1.one hv
    have := h1'.mu
    refine wp.bind (wp.allowIn (n := 1) (b := true)
      (R := fun e i r => Derives (Located S) (env.withIn true) .assign i r e)
      (h1'.pre hp) fun s2 hmu hla hp2 => hr.assign s2 _ hp2 (by omega)) fun thn s2 h2 => ?_
    have := h2.mu
    refine (wp.expect h2.inv rfl).bind ?_
    rintro t3 s3 ⟨hv3, h3⟩
    have := h3.zero.mu
    refine (hr.assign s3 env (h3.tr.pre (h2.pre (h1'.pre hp))) (by omega)).bind
      fun alt s4 h4 => ?_
    refine (h1'.trans (h2.trans (h3.zero.trans h4))).mono (Nat.zero_le _) ?_
    rintro a b ⟨_, rfl, _, hd1, _, rfl, hd2⟩ i0 - hd
    exact .cond hd hv hd1 hv3 hd2
  · refine h1.tr.imp ?_
    rintro a b ⟨rfl, r, rfl⟩ i0 hn hd
    exact .condNone (fun _ _ h => by cases h; exact hnr) hn ⟨t, r, rfl, hv⟩ hd

theorem wp.moreAssignment (hr : RecOk u S r na ni) {left : Expr} (hp : Pre S env s)
    (ha : s.mu ≤ na) :
    wp u (P.moreAssignment r left) s (fun e s' => Tr S 0 s s' (fun i r => ∀ i0,
      Derives (Located S) env .cond i0 i left → Derives (Located S) env .assign i0 r e)) := by
  unfold P.moreAssignment
  refine (wp.readOp hp.inv).bind fun t s1 h1 => ?_
  have hp1 := h1.tr.pre hp
  rw [eqv_plain rfl]
  refine wp.ite (fun hc => ?_) (fun hc => ?_)
  · have hv : t.value = .assign := by simpa using hc
    have := (h1.one hv).mu
    refine wp.toPatt.bind ?_
    rintro x _ ⟨rfl, rfl, has⟩
    refine (hr.assign _ env hp1 (by omega)).bind fun e s2 h2 => ?_
    refine (h1.tr.trans h2).mono (Nat.zero_le _) ?_
    rintro a b ⟨_, rfl, hd⟩ i0 h
    exact .assign hp.env.notPlain has h hv hd
  · split
    rotate_left
    · rename_i hop
      refine wp.bind (wp.unread (Q := fun _ s3 => s3 = s1.push t) (h1.la1 hp.inv) rfl) ?_
      rintro _ _ rfl
      refine (h1.back (h1.la1 hp.inv)).tr.imp ?_
      rintro a b ⟨rfl, r, rfl⟩ i0 h
      refine .assignNone ⟨t, r, rfl, by simpa using hc, fun op ho => ?_⟩ h
      have := toAssop_of ho
      rw [hop] at this
      cases this
    · rename_i op hop
      have ho := toAssop_ok hop
      have := h1.tr.mu
      have := IsAssop.weight ho
      refine wp.toTarget.bind ?_
      rintro x _ ⟨rfl, rfl⟩
      refine (hr.assign _ env hp1 (by omega)).bind fun e s2 h2 => ?_
      refine (h1.tr.trans h2).mono (Nat.zero_le _) ?_
      rintro a b ⟨_, rfl, hd⟩ i0 h
      exact .binAssign h ho hd

theorem wp.assignmentExpression (hr : RecOk u S r na ni) (hp : Pre S env s) (ha : s.mu ≤ na)
    (hi : s.mu ≤ ni) : wp u (P.assignmentExpression r) s (Post S env .assign 1 s) := by
  unfold P.assignmentExpression P.conditionalExpression
  have hc : wp u (do
      let left ← P.unaryExpression r
      let test ← P.moreInfixExpressions r left
      P.moreConditional r test) s (Post S env .cond 1 s) := by
    refine (wp.unaryExpression hr hp ha hi).bind ?_
    rintro e1 s1 ⟨hc1, h1⟩
    have := h1.mu
    refine (wp.moreInfixExpressions hr (h1.pre hp) hc1 (by omega) (by omega)).bind ?_
    rintro e2 s2 ⟨hc2, h2⟩
    have := h2.mu
    refine (wp.moreConditional hr (h2.pre (h1.pre hp)) hc2 (by omega)).mono fun e3 s3 h3 => ?_
    refine (h1.trans (h2.trans h3)).mono (Nat.le_add_right ..) ?_
    rintro a b ⟨_, hd, _, ⟨hn, h2⟩, h3⟩
    exact h3 _ hn (h2 _ hd)
  refine hc.bind fun e1 s1 h1 => ?_
  have := h1.mu
  refine (wp.moreAssignment hr (h1.pre hp) (by omega)).mono fun e2 s2 h2 => ?_
  refine (h1.trans h2).mono (Nat.le_add_right ..) ?_
  rintro a b ⟨_, hd, h2⟩
  exact h2 _ hd

end P

end Esprit
