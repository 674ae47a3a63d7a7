import Verif.Proofs.Complete.Expr

/-! Infix operators, conditionals, assignments. -/

set_option linter.unusedSectionVars false
set_option linter.unusedVariables false

namespace Esprit

open Lex ReaderSpec Grammar

theorem Stack.extend_frames {op : Infix} {stack : Stack} : ∀ {frames : List Frame} {o : Expr},
    (∀ f ∈ frames, op.level ≤ f.op.level) → (∀ f fs, stack = f :: fs → f.op.level < op.level) →
    Stack.extend (frames ++ stack) o op = ⟨Stack.finish frames o, op⟩ :: stack := by
  intro frames
  induction frames with
  | nil =>
    intro o _ h2
    cases stack with
    | nil => rfl
    | cons f fs =>
      have h3 := h2 f fs rfl
      show (if f.op.groupsLeft op then _ else _) = _
      rw [if_neg (fun h => by have := (Infix.level_le op f.op).1 h; omega)]
      rfl
  | cons f fs ih =>
    intro o h1 h2
    show (if f.op.groupsLeft op then _ else _) = _
    rw [if_pos ((Infix.level_le op f.op).2 (h1 f (by simp)))]
    exact ih (fun g hg => h1 g (by simp [hg])) h2

theorem Stack.finish_append {f : Frame} : ∀ {frames : List Frame} {o : Expr},
    Stack.finish (frames ++ [f]) o = f.fill (Stack.finish frames o) := by
  intro frames
  induction frames with
  | nil => intro o; rfl
  | cons g gs ih => intro o; exact ih

namespace P

variable [Env] [LawfulEnv] {S : Str} {env : Scope} {s s1 s2 s' : PState} {t t2 t3 : Token}
  {ts inp rest i1 i2 : List Token} {α β γ : Type} {c : Cat} {r : Rec} {n N k : Nat}
  {e e1 e2 a b d : Expr}

theorem comp_binaryUnary (h : CUnary S env inp rest e) : CBinary S env 10 inp rest e := by
  intro ho n Q s stack hst hs hq
  rw [unaryExpression_eq]
  refine .loop_bind fun M => h ho n _ s [] M hs fun s' e' h1 he => ?_
  exact fun N => hq s' [] e' N h1 (by simp) he

theorem comp_binaryUp (h : CBinary S env (k + 1) inp rest e) : CBinary S env k inp rest e := by
  intro ho n Q s stack hst hs hq
  refine h ho n Q s stack (fun f fs hf => Nat.lt_succ_of_lt (hst f fs hf)) hs
    fun s' frames o' N h1 h2 h3 => hq s' frames o' N h1 (fun f hf => Nat.le_of_succ_le (h2 f hf)) h3

theorem cp.matchInfixYes {op : Infix} {Q : Option Infix → PState → Prop}
    (hs : Ahead S env s (t :: ts)) (hm : t.value.inMode true = true)
    (hop : (∃ o, op = .binop o ∧ IsBinop env t o) ∨ ∃ o, op = .logop o ∧ IsLogop t o)
    (hq : ∀ s', Ahead S env s' ts → Q (some op) s') : cp matchInfix s Q := by
  unfold matchInfix
  refine .bind (.readOp hs (.inl hm) fun s1 _ h1 => .get_bind ?_)
  rw [h1.fits.allowIn]
  rcases hop with ⟨o, rfl, ho⟩ | ⟨o, rfl, ho⟩
  · rw [toBinop_of ho]; exact hq s1 h1
  · cases hb : t.toBinop env.allowIn with
    | none => rw [toLogop_of ho]; exact hq s1 h1
    | some o' =>
      exfalso
      have h2 := toBinop_ok hb rfl
      have h3 := toLogop_of ho
      unfold Token.toLogop TokenData.toLogopTag at h3
      unfold Token.toBinop TokenData.toBinopTag at hb
      split at h3
      · rename_i hv; rw [hv] at hb; cases hb
      · rename_i hv; rw [hv] at hb; cases hb
      · cases h3

theorem cp.matchInfixNo {Q : Option Infix → PState → Prop} (hs : Ahead S env s inp)
    (hm : OpNext inp) (hop : NoInfix env inp)
    (hq : ∀ s', s'.la ≠ [] → Ahead S env s' inp → Q none s') : cp matchInfix s Q := by
  obtain ⟨t, r, rfl, hm⟩ := hm
  obtain ⟨t', r', hh, h1, h2⟩ := hop
  obtain ⟨rfl, rfl⟩ := List.cons.inj hh
  unfold matchInfix
  refine .bind (.readOp hs (.inl hm) fun s1 hstr h3 => .get_bind ?_)
  rw [h3.fits.allowIn]
  split
  · rename_i op hb; exact (h1 op (toBinop_ok hb rfl)).elim
  · split
    · rename_i op hb; exact (h2 op (toLogop_ok hb)).elim
    · exact .bind (.unread h3 hstr fun s4 hl h4 => hq s4 hl h4)

theorem comp_infix {l : Loc} {op : Infix} {x : Expr}
    (hop : (∃ o, op = .binop o ∧ IsBinop env t o) ∨ ∃ o, op = .logop o ∧ IsLogop t o)
    (hm : t.value.inMode true = true)
    (hx : ∀ a' b', a'.untrack = a.untrack → b'.untrack = b.untrack →
      (Frame.fill ⟨a', op⟩ b').untrack = x.untrack)
    (h1 : CBinary S env op.level inp (t :: i1) a) (h2 : CBinary S env (op.level + 1) i1 rest b) :
    CBinary S env op.level inp rest x := by
  intro ho n Q s stack hst hs hq
  refine h1 ⟨_, _, rfl, hm⟩ n Q s stack hst hs fun s1 frames o' N h3 h4 h5 => .loopN fun M _ => ?_
  unfold infixStep
  refine .bind (.matchInfixYes h3 hm hop fun s2 h6 => ?_)
  show cp (unaryExpression (recOf n) >>= fun operand =>
    pure (Sum.inl (Stack.extend (frames ++ stack) o' op, operand))) s2 _
  rw [Stack.extend_frames h4 hst]
  refine .bind ?_
  refine (h2 ho n Q s2 (⟨Stack.finish frames o', op⟩ :: stack) ?_ h6
    fun s3 frames2 o2 N h7 h8 h9 => ?_).mono fun o s' h => h M
  · intro f fs hf
    cases hf
    exact Nat.lt_succ_self _
  · have := hq s3 (frames2 ++ [⟨Stack.finish frames o', op⟩]) o2 N h7
      (by
        intro f hf
        rcases List.mem_append.1 hf with hf | hf
        · exact Nat.le_of_succ_le (h8 f hf)
        · rw [List.mem_singleton.1 hf]; exact Nat.le_refl _)
      (by rw [Stack.finish_append]; exact hx _ _ h5 h9)
    rwa [List.append_assoc] at this

theorem comp_binop {l : Loc} {op : Op BinopTag}
    (h1 : CBinary S env (Infix.binop op).level inp (t :: i1) a) (hop : IsBinop env t op)
    (h2 : CBinary S env ((Infix.binop op).level + 1) i1 rest b) :
    CBinary S env (Infix.binop op).level inp rest (.eBinop l op a b) :=
  comp_infix (l := l) (.inl ⟨op, rfl, hop⟩) hop.inMode (fun a' b' ha hb => Ut.eBinop ha hb) h1 h2

theorem comp_logop {l : Loc} {op : Op LogopTag}
    (h1 : CBinary S env (Infix.logop op).level inp (t :: i1) a) (hop : IsLogop t op)
    (h2 : CBinary S env ((Infix.logop op).level + 1) i1 rest b) :
    CBinary S env (Infix.logop op).level inp rest (.eLogop l op a b) :=
  comp_infix (l := l) (.inr ⟨op, rfl, hop⟩) hop.inMode (fun a' b' ha hb => Ut.eLogop ha hb) h1 h2

theorem cp.operators {f : Expr → P β} {Q : β → PState → Prop} (h : CBinary S env 0 inp rest e)
    (ho : OpNext rest) (hn : NoInfix env rest) (hs : Ahead S env s inp)
    (hq : ∀ s' e', s'.la ≠ [] → Ahead S env s' rest → e'.untrack = e.untrack → cp (f e') s' Q) :
    cp (do let left ← unaryExpression (recOf n)
           let test ← moreInfixExpressions (recOf n) left
           f test) s Q := by
  refine .bind ?_
  refine (h ho n (fun x s' => cp (f (Stack.finish x.1 x.2)) s' Q) s []
    (by intro f fs hf; cases hf) hs fun s1 frames o' N h1 _ h3 => .loopN fun M _ => ?_).mono
    fun o s1 h1 => .bind (.bind (.loop fun N => h1 N))
  unfold infixStep
  rw [List.append_nil]
  exact .bind (.matchInfixNo h1 ho hn fun s2 hl h4 => hq s2 _ hl h4 h3)

theorem comp_condNone (ho : OpNext rest) (hn : NoInfix env rest) (hq : NextIsNot rest .question)
    (h : CBinary S env 0 inp rest e) (n : Nat) :
    Yields S env (conditionalExpression (recOf n)) inp rest e := by
  intro s hs
  unfold conditionalExpression
  refine cp.operators h ho hn hs fun s1 e' hl h1 he => ?_
  obtain ⟨t, r, rfl, hv⟩ := hq
  unfold moreConditional
  exact .bind (.matchesOpNo h1 hv (.inr hl) fun s2 _ h2 => ⟨he, h2⟩)

theorem noInfix_question (hv : t.value = .question) : NoInfix env (t :: ts) := by
  refine ⟨t, ts, rfl, ?_, ?_⟩
  · intro op hop
    have := toBinop_of hop
    unfold Token.toBinop at this
    rw [hv] at this; cases this
  · intro op hop
    have := toLogop_of hop
    unfold Token.toLogop at this
    rw [hv] at this; cases this

theorem comp_cond {l : Loc} (h : CBinary S env 0 inp (t :: i1) a) (hv : t.value = .question)
    (h1 : ∀ n, Yields S (env.withIn true) (recOf n).assign i1 (t2 :: i2) b)
    (hv2 : t2.value = .colon) (h2 : ∀ n, Yields S env (recOf n).assign i2 rest d) (n : Nat) :
    Yields S env (conditionalExpression (recOf n)) inp rest (.eCond l a b d) := by
  intro s hs
  unfold conditionalExpression
  refine cp.operators h (.of hv rfl) (noInfix_question hv) hs fun s1 e' hl h3 he => ?_
  unfold moreConditional
  refine .bind (.matchesOpYes h3 hv fun s2 h4 => ?_)
  rw [if_pos rfl]
  refine (h1 n).allowIn.bind h4 fun b' s3 hb h5 => ?_
  refine .bind (.expect h5 hv2 fun s4 h6 => ?_)
  exact (h2 n).bind h6 fun d' s5 hd h7 => ⟨Ut.eCond he hb hd, h7⟩

/-! ### Assignments -/

theorem comp_assignNone (hn : NoAssign rest) (ho : OpNext rest)
    (h : ∀ n, Yields S env (conditionalExpression (recOf n)) inp rest e) :
    ∀ n, Yields S env (recOf n).assign inp rest e := by
  intro n s hs
  cases n with
  | zero => trivial
  | succ n =>
    show cp (assignmentExpression (recOf n)) s _
    unfold assignmentExpression
    refine (h n).bind hs fun e' s1 he h1 => ?_
    obtain ⟨t, r, rfl, hm⟩ := ho
    obtain ⟨t', r', hh, hv, ha⟩ := hn
    obtain ⟨rfl, rfl⟩ := List.cons.inj hh
    unfold moreAssignment
    refine .bind (.readOp h1 (.inl hm) fun s2 hstr h2 => ?_)
    rw [eqv_false rfl hv, if_neg (by decide)]
    split
    · rename_i op hb; exact (ha op (toAssop_ok hb)).elim
    · exact .bind (.unread h2 hstr fun s3 _ h3 => ⟨he, h3⟩)

theorem comp_assign {l : Loc} {p : PattTarget} (hr : Patt.restFree p)
    (h : ∀ n, Yields S env (conditionalExpression (recOf n)) inp (t :: i1) (Patt.sourceExpr p))
    (hv : t.value = .assign) (h1 : ∀ n, Yields S env (recOf n).assign i1 rest e) :
    ∀ n, Yields S env (recOf n).assign inp rest (.eAssign l p e) := by
  intro n s hs
  cases n with
  | zero => trivial
  | succ n =>
    show cp (assignmentExpression (recOf n)) s _
    unfold assignmentExpression
    refine (h n).bind hs fun e' s1 he h2 => ?_
    unfold moreAssignment
    refine .bind (.readOp h2 (.inl (inMode_of hv rfl)) fun s2 hstr h3 => ?_)
    rw [(eqv_true rfl).2 hv, if_pos rfl]
    refine .bind (.toPatt hr he fun p' hp => ?_)
    exact (h1 n).bind h3 fun e2 s4 he2 h4 => ⟨Ut.eAssign hp he2, h4⟩

theorem comp_binAssign {l : Loc} {x : AssignTarget} {op : Op AssopTag}
    (h : ∀ n, Yields S env (conditionalExpression (recOf n)) inp (t :: i1) (Patt.sourceTarget x))
    (hop : IsAssop t op) (h1 : ∀ n, Yields S env (recOf n).assign i1 rest e) :
    ∀ n, Yields S env (recOf n).assign inp rest (.eBinAssign l op x e) := by
  intro n s hs
  cases n with
  | zero => trivial
  | succ n =>
    show cp (assignmentExpression (recOf n)) s _
    unfold assignmentExpression
    refine (h n).bind hs fun e' s1 he h2 => ?_
    unfold moreAssignment
    refine .bind (.readOp h2 (.inl hop.inMode) fun s2 hstr h3 => ?_)
    have hne : t.value ≠ .assign := by
      intro hv
      have := toAssop_of hop
      unfold Token.toAssop at this
      rw [hv] at this; cases this
    rw [eqv_false rfl hne, if_neg (by decide), toAssop_of hop]
    refine .bind (.toTarget he fun p' hp => ?_)
    exact (h1 n).bind h3 fun e2 s4 he2 h4 => ⟨Ut.eBinAssign hp he2, h4⟩

end P

end Esprit
