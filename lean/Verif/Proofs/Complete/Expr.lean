import Verif.Proofs.Complete.Motive

/-! Expressions. -/

set_option linter.unusedSectionVars false
set_option linter.unusedVariables false

namespace Esprit

open Lex ReaderSpec Grammar

namespace P

variable [Env] [LawfulEnv] {S : Str} {env : Scope} {s s1 s2 s' : PState} {t t2 t3 : Token}
  {ts inp rest i1 i2 : List Token} {α β γ : Type} {c : Cat} {r : Rec} {n N : Nat}
  {e e1 e2 a b : Expr}

/-! ### Lists -/

theorem CComma.last {f : Nat → P (Ast c)} {x : Ast c} (h : ∀ n, Yields S env (f n) inp rest x)
    (hn : NextIsNot rest .comma) (hd : NoDivision rest) :
    CComma S env f inp rest (.cons x .nil) := by
  refine ⟨x, .nil, rest, rfl, h, .inl rfl, (fun h => (h rfl).elim), ?_⟩
  intro n acc N s hs
  obtain ⟨t, r, rfl, hv⟩ := hn
  refine .loopN fun M _ => ?_
  unfold moreCommaStep
  exact .bind (.matchesNo hs hv (.inl hd.inMode) fun s' _ h' => .nil h')

theorem CComma.cons {f : Nat → P (Ast c)} {x : Ast c} {xs : Ast (.list c)}
    (h : ∀ n, Yields S env (f n) inp (t :: i1) x) (hv : t.value = .comma)
    (ht : CComma S env f i1 rest xs) :
    CComma S env f inp rest (.cons x xs) := by
  obtain ⟨x1, xs1, i2, rfl, h1, h2, h3, h4⟩ := ht
  refine ⟨x, _, _, rfl, h, .inr ⟨_, _, rfl, hv⟩, (fun _ => ⟨_, _, rfl, hv⟩), ?_⟩
  intro n acc N s hs
  refine .loopN fun M _ => ?_
  unfold moreCommaStep
  refine .bind (.matchesYes hs hv fun s1 h5 => ?_)
  rw [if_pos rfl]
  refine (h1 n).bind h5 fun a s2 ha h6 => .pure ?_
  exact (h4 n _ _ _ h6).mono fun zs s' h7 => h7.cons ha

theorem CComma.separated {f : Nat → P (Ast c)} {xs : Ast (.list c)} {Q : List (Ast c) → PState → Prop}
    (h : CComma S env f inp rest xs) (hs : Ahead S env s inp)
    (hq : ∀ zs s', (Ast.ofList zs).untrack = xs.untrack → Ahead S env s' rest → Q zs s') :
    cp (commaSeparated (f n)) s Q := by
  obtain ⟨x, xs1, i2, rfl, h1, h2, h3, h4⟩ := h
  unfold commaSeparated moreComma
  refine (h1 n).bind hs fun a s1 ha h5 => .loop fun N => ?_
  refine (h4 n _ _ _ h5).mono fun zs s' h6 => ?_
  obtain ⟨h7, h8⟩ := h6.first ha
  exact hq zs s' h7 h8

/-! ### Sequences -/

theorem comp_exprOne (h : ∀ n, Yields S env (recOf n).assign inp rest e)
    (hn : NextIsNot rest .comma) (hd : NoDivision rest) (n : Nat) :
    Yields S env (expression (recOf n)) inp rest e := by
  intro s hs
  unfold expression moreExpressions
  refine (h n).bind hs fun a s1 ha h1 => ?_
  obtain ⟨t, r, rfl, hv⟩ := hn
  refine .bind (.peek h1 (.inl hd.inMode) fun s2 _ h2 => ?_)
  rw [eqv_false rfl hv]
  exact ⟨ha, h2⟩

theorem comp_exprSeq {l : Loc} {es : Ast (.list .expr)}
    (h : CComma S env (fun n => (recOf n).assign) inp rest (.cons a (.cons b es))) (n : Nat) :
    Yields S env (expression (recOf n)) inp rest (.eSeq l (.cons a (.cons b es))) := by
  obtain ⟨x, xs1, i2, he, h1, h2, h3, h4⟩ := h
  cases he
  intro s hs
  unfold expression moreExpressions
  refine (h1 n).bind hs fun a s1 ha h5 => ?_
  obtain ⟨t, r, rfl, hv⟩ := h3 (by intro h; cases h)
  refine .bind (.peek h5 (.inl (inMode_of hv rfl)) fun s2 _ h6 => ?_)
  rw [(eqv_true rfl).2 hv]
  unfold moreComma
  refine .bind (.loop fun N => (h4 n _ _ _ h6).mono fun zs s3 h7 => ?_)
  obtain ⟨h8, h9⟩ := h7.first ha
  exact .bind (.vecSpan fun l => ⟨Ut.eSeq h8, h9⟩)

theorem Yields.paren (h : ∀ n, Yields S (env.withIn true) (expression (recOf n)) i1 (t2 :: rest) e)
    (hv : t.value = .lParen) (hv2 : t2.value = .rParen) (n : Nat) :
    Yields S env (parenExpression (recOf n)) (t :: i1) rest e := by
  intro s hs
  unfold parenExpression
  refine .bind (.expect hs hv fun s1 h1 => ?_)
  refine (h n).allowIn.bind h1 fun a s2 ha h2 => ?_
  exact .bind (.expect h2 hv2 fun s3 h3 => ⟨ha, h3⟩)

/-! ### Arguments and elements -/

theorem comp_argExpr (h : ∀ n, Yields S env (recOf n).assign inp rest e)
    (hf : NextSat (some exprStart) inp) (n : Nat) :
    Yields S env (exprListItem (recOf n)) inp rest (.iExpr e) := by
  intro s hs
  obtain ⟨t, r, rfl, hv⟩ := hf
  unfold exprListItem
  refine .bind (.peek hs (.inl (inMode_of_start hv)) fun s1 _ h1 => ?_)
  split
  · rename_i hv'; rw [hv'] at hv; cases hv
  · exact (h n).bind h1 fun a s2 ha h2 => ⟨Ut.iExpr ha, h2⟩

theorem comp_argSpread {l : Loc} (hv : t.value = .ellipsis)
    (h : ∀ n, Yields S env (recOf n).assign i1 rest e) (n : Nat) :
    Yields S env (exprListItem (recOf n)) (t :: i1) rest (.iSpread l e) := by
  intro s hs
  unfold exprListItem
  refine .bind (.peek hs (.inl (inMode_of hv rfl)) fun s1 _ h1 => ?_)
  rw [hv]
  refine .span (.bind (.reread h1 fun s2 _ h2 => ?_))
  exact (h n).bind h2 fun a s3 ha h3 l => ⟨Ut.iSpread ha, h3⟩

theorem comp_argsLast {x : Ast .item} (h : ∀ n, Yields S env (exprListItem (recOf n)) inp rest x)
    (hr : NextIs rest .rParen) :
    CLoop S env (fun n => argumentsStep (recOf n)) inp rest (.cons x .nil) := by
  intro n acc N s hs
  obtain ⟨t, r, rfl, hv⟩ := hr
  refine .loopN fun M _ => ?_
  unfold argumentsStep
  refine (h n).bind hs fun a s1 ha h1 => ?_
  refine .bind (.matchesNo h1 (by rw [hv]; nofun) (.inl (inMode_of hv rfl)) fun s2 _ h2 => ?_)
  exact .last h2 ha

theorem comp_argsCons {x : Ast .item} {xs : Ast (.list .item)}
    (h : ∀ n, Yields S env (exprListItem (recOf n)) inp (t :: i1) x) (hv : t.value = .comma)
    (ht : CLoop S env (fun n => argumentsStep (recOf n)) i1 rest xs) :
    CLoop S env (fun n => argumentsStep (recOf n)) inp rest (.cons x xs) := by
  intro n acc N s hs
  refine .loopN fun M _ => ?_
  unfold argumentsStep
  refine (h n).bind hs fun a s1 ha h1 => ?_
  refine .bind (.matchesYes h1 hv fun s2 h2 => ?_)
  exact (ht n _ _ _ h2).mono fun zs s' h3 => h3.cons ha

theorem comp_argListNil : CArgList S env inp inp .nil := by
  intro hr n s hs
  obtain ⟨t, r, rfl, hv⟩ := hr
  refine .bind (.peek hs (.inl (inMode_of hv rfl)) fun s1 _ h1 => ?_)
  rw [(eqv_true rfl).2 hv]
  exact .nil h1

theorem comp_argList {xs : Ast (.list .item)}
    (h : NextIs rest .rParen → CLoop S env (fun n => argumentsStep (recOf n)) inp rest xs)
    (hf : NextSat (some argStart) inp) : CArgList S env inp rest xs := by
  intro hr n s hs
  obtain ⟨t, r, rfl, hv⟩ := hf
  refine .bind (.peek hs (.inl (inMode_of_start hv)) fun s1 _ h1 => ?_)
  rw [eqv_false rfl (ne_of_start hv)]
  exact .loop fun N => h hr n _ _ _ h1

theorem cp.join {m : P α} {cond : α → Bool} {f g : α → P β} {jp : β → P γ} {Q : γ → PState → Prop}
    (h : cp (m >>= fun a => if cond a = true then f a else g a) s fun b s' => cp (jp b) s' Q) :
    cp (m >>= fun a => if cond a = true then f a >>= jp else g a >>= jp) s Q := by
  refine .bind (h.unbind.mono fun a s' h1 => ?_)
  split
  · rename_i hc; rw [if_pos hc] at h1; exact .bind h1
  · rename_i hc; rw [if_neg hc] at h1; exact .bind h1

theorem cp.arguments {xs : Ast (.list .item)} {Q : Arguments → PState → Prop}
    (hs : Ahead S env s (t :: i1)) (hv : t.value = .lParen)
    (h : CArgList S (env.withIn true) i1 (t2 :: rest) xs) (hv2 : t2.value = .rParen)
    (hq : ∀ args s', (Ast.ofList args).untrack = xs.untrack → Ahead S env s' rest →
      Q ⟨args, t2⟩ s') :
    cp (P.arguments (recOf n)) s Q := by
  unfold P.arguments
  refine .allowIn hs fun s1 _ h1 => ?_
  refine .bind (.expect h1 hv fun s2 h2 => ?_)
  refine .join ((h ⟨_, _, rfl, hv2⟩ n s2 h2).mono fun zs s3 h3 => ?_)
  obtain ⟨h4, h5⟩ := h3.start
  exact .bind (.expect h5 hv2 fun s4 h6 => ⟨rest, h6, fun s5 h7 => hq zs s5 h4 h7⟩)

theorem comp_elemsNil (hr : NextIs inp .rBrack) :
    CLoop S env (fun n => arrayStep (recOf n)) inp inp .nil := by
  intro n acc N s hs
  obtain ⟨t, r, rfl, hv⟩ := hr
  refine .loopN fun M _ => ?_
  unfold arrayStep
  refine .bind (.peek hs (.inl (inMode_of hv rfl)) fun s1 _ h1 => ?_)
  rw [(eqv_true rfl).2 hv]
  exact .nil h1

theorem cp.arrayElement {x : Ast .item} {Q : Ast (.opt .item) → PState → Prop}
    (h : ∀ n, Yields S env (exprListItem (recOf n)) (t :: ts) rest x) (hv : argStart t.value = true)
    (hs : Ahead S env s (t :: ts))
    (hq : ∀ a s', a.untrack = (Ast.some x).untrack → Ahead S env s' rest → Q a s') :
    cp (P.arrayElement (recOf n)) s Q := by
  unfold P.arrayElement
  refine .bind (.peek hs (.inl (inMode_of_start hv)) fun s1 _ h1 => ?_)
  rw [eqv_false rfl (ne_of_start hv)]
  exact (h n).bind h1 fun a s2 ha h2 => hq _ _ (Ut.some ha) h2

theorem comp_elemsLast {x : Ast .item} (h : ∀ n, Yields S env (exprListItem (recOf n)) inp rest x)
    (hf : NextSat (some argStart) inp) (hr : NextIs rest .rBrack) :
    CLoop S env (fun n => arrayStep (recOf n)) inp rest (.cons (.some x) .nil) := by
  intro n acc N s hs
  obtain ⟨t, r, rfl, hv⟩ := hr
  obtain ⟨t0, r0, rfl, hv0⟩ := hf
  refine .loopN fun M _ => ?_
  unfold arrayStep
  refine .bind (.peek hs (.inl (inMode_of_start hv0)) fun s1 _ h1 => ?_)
  rw [eqv_false rfl (ne_of_start hv0)]
  refine .bind (.arrayElement h hv0 h1 fun a s2 ha h2 => ?_)
  refine .bind (.matchesNo h2 (by rw [hv]; nofun) (.inl (inMode_of hv rfl)) fun s3 _ h3 => ?_)
  exact .last h3 ha

theorem comp_elemsCons {x : Ast .item} {xs : Ast (.list (.opt .item))}
    (h : ∀ n, Yields S env (exprListItem (recOf n)) inp (t :: i1) x)
    (hf : NextSat (some argStart) inp) (hv : t.value = .comma)
    (ht : CLoop S env (fun n => arrayStep (recOf n)) i1 rest xs) :
    CLoop S env (fun n => arrayStep (recOf n)) inp rest (.cons (.some x) xs) := by
  intro n acc N s hs
  obtain ⟨t0, r0, rfl, hv0⟩ := hf
  refine .loopN fun M _ => ?_
  unfold arrayStep
  refine .bind (.peek hs (.inl (inMode_of_start hv0)) fun s1 _ h1 => ?_)
  rw [eqv_false rfl (ne_of_start hv0)]
  refine .bind (.arrayElement h hv0 h1 fun a s2 ha h2 => ?_)
  refine .bind (.matchesYes h2 hv fun s3 h3 => ?_)
  exact (ht n _ _ _ h3).mono fun zs s' h4 => h4.cons ha

theorem comp_elemsHole {xs : Ast (.list (.opt .item))} (hv : t.value = .comma)
    (ht : CLoop S env (fun n => arrayStep (recOf n)) i1 rest xs) :
    CLoop S env (fun n => arrayStep (recOf n)) (t :: i1) rest (.cons .none xs) := by
  intro n acc N s hs
  refine .loopN fun M _ => ?_
  unfold arrayStep
  refine .bind (.peek hs (.inl (inMode_of hv rfl)) fun s1 _ h1 => ?_)
  rw [eqv_false rfl (by rw [hv]; nofun)]
  unfold P.arrayElement
  refine .bind (.bind (.peek h1 (.inl (inMode_of hv rfl)) fun s2 _ h2 => ?_))
  rw [(eqv_true rfl).2 hv]
  refine .bind (.matchesYes h2 hv fun s3 h3 => ?_)
  exact (ht n _ _ _ h3).mono fun zs s' h4 => h4.cons rfl

/-! ### Primary expressions -/

theorem comp_identifier {i : Id} (hi : Ident env false t i) (n : Nat) :
    Yields S env (primaryExpression (recOf n)) (t :: rest) rest (.eId i) := by
  intro s hs
  obtain ⟨nm, hv, rfl, hok⟩ := hi.value
  unfold primaryExpression
  refine .bind (.read hs (.inl (inMode_of hv rfl)) fun s1 _ h1 => ?_)
  rw [hv]
  exact .bind (.newId h1 hok fun s2 _ h2 => ⟨rfl, h2⟩)

theorem comp_literal {x : Expr} (hm : t.value.inMode false = true)
    (h : ∀ s, Ahead S env s rest → cp (α := Expr) (match t.value with
      | .reserved .null => pure (Ast.eNull (some t.location))
      | .reserved .this => pure (Ast.eThis (some t.location))
      | .reserved .true => pure (Ast.eTrue (some t.location))
      | .reserved .false => pure (Ast.eFalse (some t.location))
      | .number literal => pure (Ast.eNumber (some t.location) literal)
      | .string literal => pure (Ast.eString (some t.location) literal)
      | .regExp literal => pure (Ast.eRegExp (some t.location) literal)
      | _ => throw (.unexpectedToken t)) s fun a s' => a.untrack = x.untrack ∧ Ahead S env s' rest)
    (n : Nat) :
    Yields S env (primaryExpression (recOf n)) (t :: rest) rest x := by
  intro s hs
  unfold primaryExpression
  refine .bind (.read hs (.inl hm) fun s1 _ h1 => ?_)
  have := h s1 h1
  revert this
  cases hv : t.value with
  | reserved w => cases w <;> first | exact fun h => h | exact fun h => h.elim
  | number _ => exact fun h => h
  | string _ => exact fun h => h
  | regExp _ => exact fun h => h
  | _ => exact fun h => h.elim

theorem comp_array {l : Loc} {es : Ast (.list (.opt .item))} (hv : t.value = .lBrack)
    (h : NextIs (t2 :: rest) .rBrack →
      CLoop S (env.withIn true) (fun n => arrayStep (recOf n)) i1 (t2 :: rest) es)
    (hv2 : t2.value = .rBrack) (n : Nat) :
    Yields S env (primaryExpression (recOf n)) (t :: i1) rest (.eArr l es) := by
  intro s hs
  unfold primaryExpression
  refine .bind (.read hs (.inl (inMode_of hv rfl)) fun s1 _ h1 => ?_)
  rw [hv]
  unfold arrayLiteral
  refine .allowIn h1 fun s2 _ h2 => ?_
  refine .bind (.loop fun N => (h ⟨_, _, rfl, hv2⟩ n _ _ _ h2).mono fun zs s3 h3 => ?_)
  obtain ⟨h4, h5⟩ := h3.start
  exact .bind (.expect h5 hv2 fun s4 h6 => ⟨rest, h6, fun s5 h7 => ⟨Ut.eArr h4, h7⟩⟩)

theorem comp_object {l : Loc} {ps : Ast (.list .prop)} (hv : t.value = .lBrace)
    (h : NextIs (t2 :: rest) .rBrace →
      CLoop S env (fun n => objectStep (recOf n)) i1 (t2 :: rest) ps)
    (hv2 : t2.value = .rBrace) (n : Nat) :
    Yields S env (primaryExpression (recOf n)) (t :: i1) rest (.eObj l ps) := by
  intro s hs
  unfold primaryExpression
  refine .bind (.read hs (.inl (inMode_of hv rfl)) fun s1 _ h1 => ?_)
  rw [hv]
  unfold objectLiteral
  refine .bind (.loop fun N => (h ⟨_, _, rfl, hv2⟩ n _ _ _ h1).mono fun zs s3 h3 => ?_)
  obtain ⟨h4, h5⟩ := h3.start
  exact .bind (.expect h5 hv2 fun s4 h6 => ⟨Ut.eObj h4, h6⟩)

theorem comp_function {f : Ast (.func (.opt .id))} (h : CFunc S env .nameOpt inp rest f)
    (hf : NextSat (some (· = .reserved .function)) inp) (n : Nat) :
    Yields S env (primaryExpression (recOf n)) inp rest (.eFun f) := by
  intro s hs
  obtain ⟨t, r, rfl, hv⟩ := hf
  have hv := of_decide_eq_true hv
  unfold primaryExpression
  refine .bind (.read hs (.inl (inMode_of hv rfl)) fun s1 ho h1 => ?_)
  rw [hv]
  refine .bind (.unread h1 ho fun s2 _ h2 => ?_)
  exact (h n _ rfl).bind h2 fun a s3 ha h3 => ⟨Ut.eFun ha, h3⟩

theorem comp_paren (hv : t.value = .lParen)
    (h : ∀ n, Yields S (env.withIn true) (expression (recOf n)) i1 (t2 :: rest) e)
    (hv2 : t2.value = .rParen) (n : Nat) :
    Yields S env (primaryExpression (recOf n)) (t :: i1) rest e := by
  intro s hs
  unfold primaryExpression
  refine .bind (.read hs (.inl (inMode_of hv rfl)) fun s1 ho h1 => ?_)
  rw [hv]
  refine .bind (.unread h1 ho fun s2 _ h2 => ?_)
  exact Yields.paren h hv hv2 n s2 h2

/-! ### Accessors, calls, `new` -/

theorem comp_lhsPrimary (h : ∀ n, Yields S env (primaryExpression (recOf n)) inp rest e)
    (hf : NextSat (some primaryStart) inp) : CLhs S env inp rest e := by
  intro _ n Q s hs hq
  obtain ⟨t, r, rfl, hv⟩ := hf
  rw [lhsExpression_eq]
  refine .loop_bind fun N => .loopN_bind fun M _ => ?_
  unfold newsStep
  refine .bind (.peek hs (.inl (inMode_of_start hv)) fun s1 _ h1 => ?_)
  rw [eqv_false rfl (ne_of_start hv)]
  show cp (callExpression (recOf n)) s1 Q
  unfold callExpression moreSuffixes
  exact (h n).bind h1 fun a s2 ha h2 => .loop fun N => hq s2 a N h2 ha

theorem comp_memberPrimary (h : ∀ n, Yields S env (primaryExpression (recOf n)) inp rest e)
    (hf : NextSat (some primaryStart) inp) : CMember S env inp rest e := by
  intro n Q s news N hne hs hq
  obtain ⟨t, r, rfl, hv⟩ := hf
  refine .loopN_bind fun M _ => ?_
  unfold newsStep
  refine .bind (.peek hs (.inl (inMode_of_start hv)) fun s1 hl h1 => ?_)
  rw [eqv_false rfl (ne_of_start hv)]
  show cp (afterNews (recOf n) news) s1 Q
  unfold afterNews
  rw [if_pos (List.length_pos_iff.2 hne)]
  refine .bind (.matchesOpNo h1 (ne_of_start hv) (.inr hl) fun s2 _ h2 => ?_)
  rw [if_neg (by decide)]
  unfold newExpression memberBaseExpression moreNewExpression
  refine .bind (.bind (.matchesTokenNo h2 (ne_of_start hv) (.inl (inMode_of_start hv)) fun s3 _ h3 => ?_))
  exact ((h n) s3 h3).mono fun a s4 ⟨ha, h4⟩ => .loop_bind fun N => hq s4 a N h4 ha

theorem comp_lhsTarget {l : Loc} (hv : t.value = .reserved .new) (hv2 : t2.value = .dot)
    (hv3 : t3.value = .identifier (.atom .target)) :
    CLhs S env (t :: t2 :: t3 :: rest) rest (.eNewTarget l) := by
  intro _ n Q s hs hq
  rw [lhsExpression_eq]
  refine .loop_bind fun N => .loopN_bind fun M _ => ?_
  unfold newsStep
  refine .bind (.peek hs (.inl (inMode_of hv rfl)) fun s1 _ h1 => ?_)
  rw [(eqv_true rfl).2 hv]
  refine .bind (.reread h1 fun s2 _ h2 => ?_)
  refine .loopN_bind fun M' _ => ?_
  refine .bind (.peek h2 (.inl (inMode_of hv2 rfl)) fun s3 _ h3 => ?_)
  rw [eqv_false rfl (by rw [hv2]; nofun)]
  show cp (afterNews (recOf n) ([] ++ [t])) s3 Q
  unfold afterNews
  rw [if_pos (by simp)]
  refine .bind (.matchesOpYes h3 hv2 fun s4 h4 => ?_)
  rw [if_pos rfl]
  refine .bind (.expect h4 hv3 fun s5 h5 => ?_)
  exact .loop fun N => hq _ _ _ h5 rfl

theorem comp_memberTarget {l : Loc} (hv : t.value = .reserved .new) (hv2 : t2.value = .dot)
    (hv3 : t3.value = .identifier (.atom .target)) :
    CMember S env (t :: t2 :: t3 :: rest) rest (.eNewTarget l) := by
  intro n Q s news N hne hs hq
  refine .loopN_bind fun M _ => ?_
  unfold newsStep
  refine .bind (.peek hs (.inl (inMode_of hv rfl)) fun s1 _ h1 => ?_)
  rw [(eqv_true rfl).2 hv]
  refine .bind (.reread h1 fun s2 _ h2 => ?_)
  refine .loopN_bind fun M' _ => ?_
  refine .bind (.peek h2 (.inl (inMode_of hv2 rfl)) fun s3 _ h3 => ?_)
  rw [eqv_false rfl (by rw [hv2]; nofun)]
  show cp (afterNews (recOf n) (news ++ [t])) s3 Q
  unfold afterNews
  rw [if_pos (by simp)]
  refine .bind (.matchesOpYes h3 hv2 fun s4 h4 => ?_)
  rw [if_pos rfl]
  refine .bind (.expect h4 hv3 fun s5 h5 => ?_)
  simp only [List.dropLast_concat]
  rw [if_pos (List.length_pos_iff.2 hne)]
  unfold moreNewExpression
  exact .loop_bind fun N => hq _ _ _ h5 rfl

theorem cp.derefDot {k : DotKey} {Q : Deref → PState → Prop} (hs : Ahead S env s (t :: t2 :: rest))
    (hk : MemberName t2 k) (hq : ∀ s', Ahead S env s' rest → Q (.dot k) s') :
    cp P.derefDot s Q := by
  unfold P.derefDot P.idName
  refine .bind (.reread hs fun s1 _ h1 => ?_)
  have hm : t2.value.inMode false = true := by cases hk <;> (rename_i h; rw [h]; rfl)
  refine .bind (.bind (.read h1 (.inl hm) fun s2 _ h2 => ?_))
  cases hk with
  | id h => rw [h]; exact hq s2 h2
  | word h => rw [h]; exact hq s2 h2

theorem cp.derefBrack {p : Expr} {Q : Deref → PState → Prop} (hs : Ahead S env s (t :: i1))
    (h : ∀ n, Yields S (env.withIn true) (expression (recOf n)) i1 (t2 :: rest) p)
    (hv2 : t2.value = .rBrack)
    (hq : ∀ p' s', p'.untrack = p.untrack → Ahead S env s' rest → Q (.brack p' t2) s') :
    cp (P.derefBrack (recOf n)) s Q := by
  unfold P.derefBrack
  refine .bind (.reread hs fun s1 _ h1 => ?_)
  refine (h n).allowIn.bind h1 fun a s2 ha h2 => ?_
  exact .bind (.expect h2 hv2 fun s3 h3 => hq _ _ ha h3)

theorem comp_lhsDot {l : Loc} {k : DotKey} (h : CLhs S env inp (t :: t2 :: rest) e)
    (hv : t.value = .dot) (hk : MemberName t2 k) : CLhs S env inp rest (.eDot l e k) := by
  intro _ n Q s hs hq
  refine h (.of hv rfl) n Q s hs fun s1 e' N h1 he => .loopN fun M _ => ?_
  unfold suffixStep suffixOpt
  refine .bind (.bind (.peekOp h1 (.inl (inMode_of hv rfl)) fun s2 _ h2 => ?_))
  rw [hv]
  exact .bind (.derefDot h2 hk fun s3 h3 => hq _ _ _ h3 (Ut.eDot he))

theorem comp_memberDot {l : Loc} {k : DotKey} (h : CMember S env inp (t :: t2 :: rest) e)
    (hv : t.value = .dot) (hk : MemberName t2 k) : CMember S env inp rest (.eDot l e k) := by
  intro n Q s news N hne hs hq
  refine h n Q s news N hne hs fun s1 e' N h1 he => .loopN_bind fun M _ => ?_
  unfold derefStep derefOpt
  refine .bind (.bind (.peekOp h1 (.inl (inMode_of hv rfl)) fun s2 _ h2 => ?_))
  rw [hv]
  exact .bind (.derefDot h2 hk fun s3 h3 => hq _ _ _ h3 (Ut.eDot he))

theorem comp_lhsBrack {l : Loc} {p : Expr} (h : CLhs S env inp (t :: i1) e)
    (hv : t.value = .lBrack)
    (hp : ∀ n, Yields S (env.withIn true) (expression (recOf n)) i1 (t2 :: rest) p)
    (hv2 : t2.value = .rBrack) : CLhs S env inp rest (.eBrack l e p) := by
  intro _ n Q s hs hq
  refine h (.of hv rfl) n Q s hs fun s1 e' N h1 he => .loopN fun M _ => ?_
  unfold suffixStep suffixOpt
  refine .bind (.bind (.peekOp h1 (.inl (inMode_of hv rfl)) fun s2 _ h2 => ?_))
  rw [hv]
  exact .bind (.derefBrack h2 hp hv2 fun p' s3 hp' h3 => hq _ _ _ h3 (Ut.eBrack he hp'))

theorem comp_memberBrack {l : Loc} {p : Expr} (h : CMember S env inp (t :: i1) e)
    (hv : t.value = .lBrack)
    (hp : ∀ n, Yields S (env.withIn true) (expression (recOf n)) i1 (t2 :: rest) p)
    (hv2 : t2.value = .rBrack) : CMember S env inp rest (.eBrack l e p) := by
  intro n Q s news N hne hs hq
  refine h n Q s news N hne hs fun s1 e' N h1 he => .loopN_bind fun M _ => ?_
  unfold derefStep derefOpt
  refine .bind (.bind (.peekOp h1 (.inl (inMode_of hv rfl)) fun s2 _ h2 => ?_))
  rw [hv]
  exact .bind (.derefBrack h2 hp hv2 fun p' s3 hp' h3 => hq _ _ _ h3 (Ut.eBrack he hp'))

theorem comp_call {l : Loc} {as : Ast (.list .item)} (h : CLhs S env inp (t :: i1) e)
    (hv : t.value = .lParen) (ha : CArgList S (env.withIn true) i1 (t2 :: rest) as)
    (hv2 : t2.value = .rParen) : CLhs S env inp rest (.eCall l e as) := by
  intro _ n Q s hs hq
  refine h (.of hv rfl) n Q s hs fun s1 e' N h1 he => .loopN fun M _ => ?_
  unfold suffixStep suffixOpt
  refine .bind (.bind (.peekOp h1 (.inl (inMode_of hv rfl)) fun s2 _ h2 => ?_))
  rw [hv]
  exact .bind (.arguments h2 hv ha hv2 fun args s3 has h3 => hq _ _ _ h3 (Ut.eCall he has))

theorem comp_lhsNew {args : Bool} (h : CNew S env args inp rest e) : CLhs S env inp rest e := by
  intro ho n Q s hs hq
  rw [lhsExpression_eq]
  refine .loop_bind fun N => h ho n Q s [] N hs fun s' e' h1 he => ?_
  exact .loop fun N => hq s' e' N h1 he

theorem comp_newBaseMember {args : Bool} (hn : NextNotIn rest [.dot, .lBrack])
    (h : CMember S env inp rest e) : CNewBase S env args inp rest e := by
  intro ho n Q s news N hne hs hq
  refine h n Q s news N hne hs fun s1 e' N h1 he => .loopN_bind fun M _ => ?_
  obtain ⟨t, r, rfl, hm⟩ := ho
  obtain ⟨t', r', hh, hn⟩ := hn
  obtain ⟨rfl, rfl⟩ := List.cons.inj hh
  unfold derefStep derefOpt
  refine .bind (.bind (.peekOp h1 (.inl hm) fun s2 _ h2 => ?_))
  split
  · rename_i hv; exact (hn (by simp [hv])).elim
  · rename_i hv; exact (hn (by simp [hv])).elim
  · exact hq s2 e' true (fun _ => rfl) h2 he

theorem comp_newBaseArgs {args : Bool} (h : CNew S env true inp rest e) :
    CNewBase S env args inp rest e := by
  intro ho n Q s news N hne hs hq
  exact h ho n Q s news N hs fun s' e' h1 he => hq s' e' true (fun _ => rfl) h1 he

theorem comp_newBaseNoArgs (h : CNew S env false inp rest e) :
    CNewBase S env false inp rest e := by
  intro ho n Q s news N hne hs hq
  exact h ho n Q s news N hs fun s' e' h1 he => hq s' e' false nofun h1 he

theorem comp_newArgs {l : Loc} {as : Ast (.list .item)} (hv : t.value = .reserved .new)
    (h : CNewBase S env true i1 (t2 :: i2) e) (hv2 : t2.value = .lParen)
    (ha : CArgList S (env.withIn true) i2 (t3 :: rest) as) (hv3 : t3.value = .rParen) :
    CNew S env true (t :: i1) rest (.eNew l e (.some as)) := by
  intro ho n Q s news N hs hq
  refine .loopN_bind fun M _ => ?_
  unfold newsStep
  refine .bind (.peek hs (.inl (inMode_of hv rfl)) fun s1 _ h1 => ?_)
  rw [(eqv_true rfl).2 hv]
  refine .bind (.reread h1 fun s2 _ h2 => ?_)
  refine h (.of hv2 rfl) n Q s2 (news ++ [t]) M (by simp) h2 fun s3 e' flag hf h3 he => ?_
  obtain rfl := hf rfl
  unfold afterDerefs
  rw [List.reverse_append]
  refine .bind ?_
  show cp (peekOp >>= _) s3 _
  refine .bind (.peekOp h3 (.inl (inMode_of hv2 rfl)) fun s4 _ h4 => ?_)
  rw [(eqv_true rfl).2 hv2]
  show cp (arguments (recOf n) >>= _) s4 _
  refine .bind (.arguments h4 hv2 ha hv3 fun args s5 has h5 => ?_)
  exact cp.unbind (hq s5 _ h5 (Ut.eNew he (Ut.some has)))

theorem comp_newNoArgs {l : Loc} (hv : t.value = .reserved .new)
    (h : CNewBase S env false i1 rest e) (hn : NextIsNot rest .lParen) :
    CNew S env false (t :: i1) rest (.eNew l e .none) := by
  intro ho n Q s news N hs hq
  refine .loopN_bind fun M _ => ?_
  unfold newsStep
  refine .bind (.peek hs (.inl (inMode_of hv rfl)) fun s1 _ h1 => ?_)
  rw [(eqv_true rfl).2 hv]
  refine .bind (.reread h1 fun s2 _ h2 => ?_)
  refine h ho n Q s2 (news ++ [t]) M (by simp) h2 fun s3 e' flag hf h3 he => ?_
  obtain ⟨t2, r, rfl, hm⟩ := ho
  obtain ⟨t', r', hh, hn⟩ := hn
  obtain ⟨rfl, rfl⟩ := List.cons.inj hh
  unfold afterDerefs
  rw [List.reverse_append]
  refine .bind ?_
  cases flag with
  | false => exact cp.unbind (hq s3 _ h3 (Ut.eNew he rfl))
  | true =>
    show cp (peekOp >>= _) s3 _
    refine .bind (.peekOp h3 (.inl hm) fun s4 _ h4 => ?_)
    rw [eqv_false rfl hn]
    exact cp.unbind (hq s4 _ h4 (Ut.eNew he rfl))

/-! ### Unary operators -/

theorem comp_postfixNone (hn : NextNotIn rest [.dot, .lBrack, .lParen]) (hp : NoPostfix rest)
    (h : CLhs S env inp rest e) (ho : OpNext rest) (n : Nat) :
    Yields S env (postfixExpr (recOf n)) inp rest e := by
  intro s hs
  unfold postfixExpr
  refine .bind (h ho n _ s hs fun s1 e' N h1 he => .loopN fun M _ => ?_)
  obtain ⟨t, r, rfl, hm⟩ := ho
  obtain ⟨t', r', hh, hn⟩ := hn
  obtain ⟨rfl, rfl⟩ := List.cons.inj hh
  obtain ⟨t', r', hh, hp⟩ := hp
  obtain ⟨rfl, rfl⟩ := List.cons.inj hh
  unfold suffixStep suffixOpt
  refine .bind (.bind (.peekOp h1 (.inl hm) fun s2 _ h2 => ?_))
  split
  · rename_i hv; exact (hn (by simp [hv])).elim
  · rename_i hv; exact (hn (by simp [hv])).elim
  · rename_i hv; exact (hn (by simp [hv])).elim
  · refine .pure ?_
    unfold matchPostfixOperatorOpt
    show cp (_ >>= _) s2 _
    refine .bind (.bind (.readOp h2 (.inl hm) fun s3 hstr h3 => ?_))
    split
    · rename_i hnl
      split
      · rename_i hv; rw [hp (.inl hv)] at hnl; cases hnl
      · rename_i hv; rw [hp (.inr hv)] at hnl; cases hnl
      · exact .bind (.unread h3 hstr fun s4 _ h4 => ⟨he, h4⟩)
    · exact .bind (.unread h3 hstr fun s4 _ h4 => ⟨he, h4⟩)

theorem cp.toTarget {x : AssignTarget} {Q : AssignTarget → PState → Prop}
    (h : e.untrack = (Patt.sourceTarget x).untrack) (hq : ∀ x', x'.untrack = x.untrack → Q x' s) :
    cp (P.toTarget e) s Q := by
  obtain ⟨x', h1, h2⟩ := intoAssignTarget_covers h
  unfold P.toTarget
  rw [h1]
  exact hq x' h2

theorem cp.toPatt {x : PattTarget} {Q : PattTarget → PState → Prop} (hr : Patt.restFree x)
    (h : e.untrack = (Patt.sourceExpr x).untrack) (hq : ∀ x', x'.untrack = x.untrack → Q x' s) :
    cp (P.toPatt e) s Q := by
  obtain ⟨x', h1, h2⟩ := intoAssignPatt_covers hr h
  unfold P.toPatt
  rw [h1]
  exact hq x' h2

theorem comp_postOp {x : AssignTarget} (inc : Bool) {l : Loc}
    (h : CLhs S env inp (t :: rest) (Patt.sourceTarget x))
    (hv : t.value = if inc then .inc else .dec) (hnl : t.newline = false) (n : Nat) :
    Yields S env (postfixExpr (recOf n)) inp rest
      (if inc then .ePostInc l x else .ePostDec l x) := by
  intro s hs
  have hm : t.value.inMode true = true := by rw [hv]; cases inc <;> rfl
  unfold postfixExpr
  refine .bind (h ⟨_, _, rfl, hm⟩ n _ s hs fun s1 e' N h1 he => .loopN fun M _ => ?_)
  unfold suffixStep suffixOpt
  refine .bind (.bind (.peekOp h1 (.inl hm) fun s2 _ h2 => ?_))
  split
  · rename_i hv'; rw [hv'] at hv; cases inc <;> cases hv
  · rename_i hv'; rw [hv'] at hv; cases inc <;> cases hv
  · rename_i hv'; rw [hv'] at hv; cases inc <;> cases hv
  · refine .pure ?_
    unfold matchPostfixOperatorOpt
    show cp (_ >>= _) s2 _
    refine .bind (.bind (.readOp h2 (.inl hm) fun s3 hstr h3 => ?_))
    rw [hnl, if_pos (by rfl), hv]
    cases inc with
    | true =>
      refine .pure ?_
      unfold applyPostfix
      exact .bind (.toTarget he fun x' hx => ⟨Ut.ePostInc hx, h3⟩)
    | false =>
      refine .pure ?_
      unfold applyPostfix
      exact .bind (.toTarget he fun x' hx => ⟨Ut.ePostDec hx, h3⟩)

theorem unopTag_operand {v : TokenData} (h : operandStart v = true) : unopTag v = none := by
  unfold unopTag
  split <;> first | rfl | (simp [operandStart, primaryStart] at h)

theorem comp_unaryPostfix (h : OpNext rest → ∀ n, Yields S env (postfixExpr (recOf n)) inp rest e)
    (hf : NextSat (some operandStart) inp) : CUnary S env inp rest e := by
  intro ho n Q s ps N hs hq
  obtain ⟨t, r, rfl, hv⟩ := hf
  refine .loopN_bind fun M _ => ?_
  unfold prefixStep matchPrefix
  refine .bind (.bind (.read hs (.inl (inMode_of_start hv)) fun s1 hstr h1 => ?_))
  split
  · rename_i hv'; rw [hv'] at hv; cases hv
  · rename_i hv'; rw [hv'] at hv; cases hv
  · refine .bind (.unread h1 hstr fun s2 _ h2 => ?_)
    unfold matchUnop
    refine .bind (.bind (.read h2 (.inl (inMode_of_start hv)) fun s3 hstr h3 => ?_))
    rw [unopTag_operand hv]
    refine .bind (.unread h3 hstr fun s4 _ h4 => ?_)
    show cp (afterPrefix (recOf n) ps) s4 Q
    unfold afterPrefix
    exact (h ho n).bind h4 fun a s5 ha h5 => hq _ _ h5 ha

theorem comp_unop {l : Loc} {op : Op UnopTag} (hop : IsUnop t op) (h : CUnary S env i1 rest e) :
    CUnary S env (t :: i1) rest (.eUnop l op e) := by
  intro ho n Q s ps N hs hq
  refine .loopN_bind fun M _ => ?_
  have htag := unopTag_of hop
  have hst := hop.start
  unfold prefixStep matchPrefix
  refine .bind (.bind (.read hs (.inl (inMode_of_start hst)) fun s1 hstr h1 => ?_))
  split
  · rename_i hv'; rw [hv'] at htag; cases htag
  · rename_i hv'; rw [hv'] at htag; cases htag
  · refine .bind (.unread h1 hstr fun s2 _ h2 => ?_)
    unfold matchUnop
    refine .bind (.bind (.read h2 (.inl (inMode_of_start hst)) fun s3 hstr h3 => ?_))
    rw [htag]
    refine h ho n Q s3 (ps ++ [.unop ⟨some t.location, op.tag⟩]) M h3 fun s4 e' h4 he => ?_
    rw [List.reverse_append]
    have : op = ⟨some t.location, op.tag⟩ := by rw [← hop.1]
    refine hq s4 _ h4 ?_
    rw [← this]
    exact Ut.eUnop he

theorem comp_preOp {l : Loc} (inc : Bool) {x : AssignTarget}
    (hv : t.value = if inc then .inc else .dec)
    (h : CUnary S env i1 rest (Patt.sourceTarget x)) :
    CUnary S env (t :: i1) rest (if inc then .ePreInc l x else .ePreDec l x) := by
  intro ho n Q s ps N hs hq
  refine .loopN_bind fun M _ => ?_
  have hm : t.value.inMode false = true := by rw [hv]; cases inc <;> rfl
  unfold prefixStep matchPrefix
  refine .bind (.bind (.read hs (.inl hm) fun s1 hstr h1 => ?_))
  rw [hv]
  cases inc with
  | true =>
    refine h ho n Q s1 (ps ++ [.inc t.location]) M h1 fun s4 e' h4 he => ?_
    rw [List.reverse_append]
    exact .bind (.toTarget he fun x' hx => hq s4 _ h4 (Ut.ePreInc hx))
  | false =>
    refine h ho n Q s1 (ps ++ [.dec t.location]) M h1 fun s4 e' h4 he => ?_
    rw [List.reverse_append]
    exact .bind (.toTarget he fun x' hx => hq s4 _ h4 (Ut.ePreDec hx))

end P

end Esprit
