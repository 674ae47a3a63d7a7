import Verif.Proofs.Complete.Stmt

/-! `for` statements. -/

set_option linter.unusedSectionVars false
set_option linter.unusedVariables false

namespace Esprit

open Lex ReaderSpec Grammar

theorem Grammar.Ident.inIff {env : Scope} {b c : Bool} {t : Token} {i : Id} :
    Ident (env.withIn b) c t i ↔ Ident env c t i := by
  constructor <;> (intro h; cases h with | mk hv hid => exact .mk hv hid)

namespace P

variable [Env] [LawfulEnv] {S : Str} {env : Scope} {s s1 s2 s' : PState}
  {t t0 t1 t2 t3 t4 t5 : Token}
  {ts inp rest i1 i2 i3 i4 : List Token} {α β γ : Type} {c : Cat} {r : Rec} {n N k : Nat}
  {e e1 e2 a d : Expr} {x x2 : Stmt} {semi : Semi} {l : Loc}

/-! ### The rest of the statement -/

theorem cp.expressionOptSemi {x : Ast (.opt .expr)} (h : CExprOpt S env inp (t :: rest) x)
    (hv : t.value = .semi) (n : Nat) :
    Yields S env (P.expressionOptSemi (recOf n)) inp rest x := by
  intro s hs
  unfold P.expressionOptSemi
  rcases h with ⟨rfl, rfl⟩ | ⟨e, rfl, ⟨t2, r, rfl, hst⟩, h⟩
  · refine .bind (.matchesYes hs hv fun s1 h1 => ?_)
    exact ⟨rfl, h1⟩
  · refine .bind (.matchesNo hs (ne_of_start hst) (.inl (inMode_of_start hst)) fun s1 _ h1 => ?_)
    refine (h n).allowIn.bind h1 fun e' s2 he h2 => ?_
    exact .bind (.expect h2 hv fun s3 h3 => ⟨Ut.some he, h3⟩)

theorem cp.forUpdate {x : Ast (.opt .expr)} (h : CExprOpt S env inp (t :: rest) x)
    (hv : t.value = .rParen) (n : Nat) :
    Yields S env (P.forUpdate (recOf n)) inp rest x := by
  intro s hs
  unfold P.forUpdate
  rcases h with ⟨rfl, rfl⟩ | ⟨e, rfl, ⟨t2, r, rfl, hst⟩, h⟩
  · refine .bind (.matchesYes hs hv fun s1 h1 => ?_)
    exact ⟨rfl, h1⟩
  · refine .bind (.matchesNo hs (ne_of_start hst) (.inl (inMode_of_start hst)) fun s1 _ h1 => ?_)
    refine (h n).allowIn.bind h1 fun e' s2 he h2 => ?_
    exact .bind (.expect h2 hv fun s3 h3 => ⟨Ut.some he, h3⟩)

theorem forStatement_eq (r : Rec) : forStatement r = span (do
    let _ ← reread (.reserved .for)
    let _ ← expect .lParen
    forBody r) := rfl

theorem comp_forStmt {head : Ast (.opt .forHead)} {test update : Ast (.opt .expr)}
    (hv : t.value = .reserved .for) (hv2 : t2.value = .lParen)
    (hh : CForHead S env i1 i2 head) (ht : CExprOpt S env i2 (t3 :: i3) test)
    (hv3 : t3.value = .semi) (hu : CExprOpt S env i3 (t4 :: i4) update) (hv4 : t4.value = .rParen)
    (hx : CStmt S env.loopBody i4 rest x) :
    CStmt S env (t :: t2 :: i1) rest (.sFor l head test update x) := by
  refine .simple (f := forStatement) hv (fun _ _ => rfl) rfl rfl (by unfold isLoop; rfl)
    fun hd n s hs => ?_
  rw [forStatement_eq]
  refine .span (.bind (.reread hs fun s1 _ h1 => .bind (.expect h1 hv2 fun s2 h2 => ?_)))
  refine hh n _ s2 h2 fun s3 h h3 he => ?_
  unfold moreFor
  refine (cp.expressionOptSemi ht hv3 n).bind h3 fun y s4 hy h4 => ?_
  refine (cp.forUpdate hu hv4 n).bind h4 fun z s5 hz h5 => ?_
  exact (Yields.iterationBody (fun n => hx.statement hd n) n).bind h5
    fun x' s6 hx h6 l => ⟨Ut.sFor he hy hz hx, h6⟩

theorem comp_forInStmt {head : Ast .forInHead}
    (hv : t.value = .reserved .for) (hv2 : t2.value = .lParen)
    (hh : CForInHead S env i1 (t3 :: i2) head) (hv3 : t3.value = .reserved .«in»)
    (h : ∀ n, Yields S (env.withIn true) (recOf n).assign i2 (t4 :: i3) e) (hv4 : t4.value = .rParen)
    (hx : CStmt S env.loopBody i3 rest x) :
    CStmt S env (t :: t2 :: i1) rest (.sForIn l head e x) := by
  refine .simple (f := forStatement) hv (fun _ _ => rfl) rfl rfl (by unfold isLoop; rfl)
    fun hd n s hs => ?_
  rw [forStatement_eq]
  refine .span (.bind (.reread hs fun s1 _ h1 => .bind (.expect h1 hv2 fun s2 h2 => ?_)))
  refine hh _ _ rfl hv3 n _ s2 h2 fun s3 h' h3 he => ?_
  unfold moreForIn
  refine (h n).allowIn.bind h3 fun y s4 hy h4 => ?_
  refine .bind (.expect h4 hv4 fun s5 h5 => ?_)
  exact (Yields.iterationBody (fun n => hx.statement hd n) n).bind h5
    fun x' s6 hx h6 l => ⟨Ut.sForIn he hy hx, h6⟩

theorem comp_forOfStmt {head : Ast .forOfHead}
    (hv : t.value = .reserved .for) (hv2 : t2.value = .lParen)
    (hh : CForOfHead S env i1 (t3 :: i2) head) (hv3 : t3.value = .identifier (.atom .of))
    (h : ∀ n, Yields S (env.withIn true) (recOf n).assign i2 (t4 :: i3) e) (hv4 : t4.value = .rParen)
    (hx : CStmt S env.loopBody i3 rest x) :
    CStmt S env (t :: t2 :: i1) rest (.sForOf l head e x) := by
  refine .simple (f := forStatement) hv (fun _ _ => rfl) rfl rfl (by unfold isLoop; rfl)
    fun hd n s hs => ?_
  rw [forStatement_eq]
  refine .span (.bind (.reread hs fun s1 _ h1 => .bind (.expect h1 hv2 fun s2 h2 => ?_)))
  refine hh _ _ rfl hv3 n _ s2 h2 fun s3 h' h3 he => ?_
  unfold moreForOf
  refine (h n).allowIn.bind h3 fun y s4 hy h4 => ?_
  refine .bind (.expect h4 hv4 fun s5 h5 => ?_)
  exact (Yields.iterationBody (fun n => hx.statement hd n) n).bind h5
    fun x' s6 hx h6 l => ⟨Ut.sForOf he hy hx, h6⟩

/-! ### Declarators -/

theorem comp_headDtorNone {i : Id} {l : Loc} (hi : Ident env true t i) :
    CHeadDtor S env (t :: rest) rest (.dtSimple l i .none) :=
  .inl ⟨t, i, hi, rfl, Ut.dtSimple rfl⟩

theorem comp_headDtorInit {i : Id} {l : Loc} (hi : Ident env true t i) (hv : t2.value = .assign)
    (h : ∀ n, Yields S env (recOf n).assign i1 rest e) :
    CHeadDtor S env (t :: t2 :: i1) rest (.dtSimple l i (.some e)) :=
  .inr ⟨t, i, t2, i1, e, hi, rfl, hv, h, Ut.dtSimple rfl⟩

theorem comp_headDtorsLast {x : Ast .dtor} (h : CHeadDtor S env inp rest x) :
    CHeadDtors S env inp rest (.cons x .nil) := by
  intro hr
  refine ⟨x, .nil, rest, rfl, h, .inl hr, ?_⟩
  intro n acc N s hs
  obtain ⟨t, r, rfl, hv⟩ := hr
  refine .loopN fun M _ => ?_
  unfold moreCommaStep
  exact .bind (.matchesNo hs (by rw [hv]; nofun) (.inl (inMode_of hv rfl)) fun s' _ h' => .nil h')

theorem comp_headDtorsCons {x : Ast .dtor} {xs : Ast (.list .dtor)}
    (h : CHeadDtor S env inp (t :: i1) x) (hv : t.value = .comma)
    (ht : NoDivision rest → CComma S env (fun n => declarator (recOf n)) i1 rest xs) :
    CHeadDtors S env inp rest (.cons x xs) := by
  intro hr
  obtain ⟨t9, r9, rfl, hv9⟩ := hr
  obtain ⟨x1, xs1, i2, rfl, h1, -, -, h4⟩ := ht (.of hv9 rfl)
  refine ⟨x, _, _, rfl, h, .inr ⟨_, _, rfl, hv⟩, ?_⟩
  intro n acc N s hs
  refine .loopN fun M _ => ?_
  unfold moreCommaStep
  refine .bind (.matchesYes hs hv fun s1 h5 => ?_)
  rw [if_pos rfl]
  refine (h1 n).bind h5 fun a s2 ha h6 => .pure ?_
  exact (h4 n _ _ _ h6).mono fun zs s' h7 => h7.cons ha

theorem cp.moreForHead {y a : Ast .dtor} {ys : Ast (.list .dtor)} {start : Loc}
    {op : Loc → Ast (.list .dtor) → Ast .forHead} {Q : Stmt → PState → Prop}
    (hs : Ahead S env s i1) (ha : a.untrack = y.untrack)
    (h : ∀ n acc N s, Ahead S (env.withIn false) s i1 →
      cp (P.loopN (moreCommaStep (declarator (recOf n))) N acc) s
        (Collects S (env.withIn false) acc ys (t2 :: rest)))
    (hv : t2.value = .semi)
    (hq : ∀ s' zs l, Ahead S env s' rest → (Ast.ofList zs).untrack = (Ast.cons y ys).untrack →
      cp (moreFor (recOf n) (.some (op l (.ofList zs)))) s' Q) :
    cp (P.moreForHead (recOf n) start a op) s Q := by
  unfold P.moreForHead moreComma
  refine .bind (.allowIn hs fun s1 _ h1 => .loop fun N => (h n [a] N s1 h1).mono fun zs s2 h2 => ?_)
  obtain ⟨h3, h4⟩ := h2.first ha
  exact ⟨_, h4, fun s3 h5 => .bind (.expect h5 hv fun s4 h6 => hq s4 zs _ h6 h3)⟩

/-- After the pattern of a head. -/
theorem comp_forHeadVar {ds : Ast (.list .dtor)} {l : Loc} (hv : t.value = .reserved .var)
    (h : CHeadDtors S (env.withIn false) i1 (t2 :: rest) ds) (hv2 : t2.value = .semi) :
    CForHead S env (t :: i1) rest (.some (.fhVar l ds)) := by
  intro n Q s hs hq
  obtain ⟨y, ys, i2, rfl, hy, hn, hl⟩ := h ⟨_, _, rfl, hv2⟩
  unfold forBody
  refine .bind (.peek hs (.inl (inMode_of hv rfl)) fun s1 _ h1 => ?_)
  rw [hv]
  show cp (forVar (recOf n)) s1 _
  unfold forVar
  refine .bind (.reread h1 fun s2 _ h2 => ?_)
  rcases hy with ⟨t3, i, hi, rfl, hy⟩ | ⟨t3, i, t4, i3, e, hi, rfl, hv4, he, hy⟩
  · unfold pattern
    obtain ⟨nm, hv3, -, -⟩ := hi.value
    refine .bind (.bind (.peek h2 (.inl (inMode_of hv3 rfl)) fun s3 _ h3 => ?_))
    rw [hv3]
    refine .bind (.id h3 (Ident.inIff.1 hi) fun s4 h4 => .pure ?_)
    rcases hn with ⟨t5, r5, rfl, hv5⟩ | ⟨t5, r5, rfl, hv5⟩
    · refine .bind (.peek h4 (.inl (inMode_of hv5 rfl)) fun s5 _ h5 => ?_)
      rw [hv5]
      exact .moreForHead h5 (by rw [hy]; exact Ut.dtSimple rfl) hl hv2 fun s6 zs l' h6 h7 =>
        hq s6 _ h6 (Ut.some (Ut.fhVar h7))
    · refine .bind (.peek h4 (.inl (inMode_of hv5 rfl)) fun s5 _ h5 => ?_)
      rw [hv5]
      exact .moreForHead h5 (by rw [hy]; exact Ut.dtSimple rfl) hl hv2 fun s6 zs l' h6 h7 =>
        hq s6 _ h6 (Ut.some (Ut.fhVar h7))
  · unfold pattern
    obtain ⟨nm, hv3, -, -⟩ := hi.value
    refine .bind (.bind (.peek h2 (.inl (inMode_of hv3 rfl)) fun s3 _ h3 => ?_))
    rw [hv3]
    refine .bind (.id h3 (Ident.inIff.1 hi) fun s4 h4 => .pure ?_)
    refine .bind (.peek h4 (.inl (inMode_of hv4 rfl)) fun s5 _ h5 => ?_)
    rw [hv4]
    refine .bind (.reread h5 fun s6 _ h6 => ?_)
    refine (he n).allowIn.bind h6 fun e' s7 he' h7 => ?_
    rcases hn with ⟨t5, r5, rfl, hv5⟩ | ⟨t5, r5, rfl, hv5⟩
    · refine .bind (.peek h7 (.inl (inMode_of hv5 rfl)) fun s8 _ h8 => ?_)
      rw [hv5]
      exact .moreForHead h8 (by rw [hy]; exact Ut.dtSimple (Ut.some he')) hl hv2
        fun s6 zs l' h6 h7 => hq s6 _ h6 (Ut.some (Ut.fhVar h7))
    · refine .bind (.peek h7 (.inl (inMode_of hv5 rfl)) fun s8 _ h8 => ?_)
      rw [hv5]
      exact .moreForHead h8 (by rw [hy]; exact Ut.dtSimple (Ut.some he')) hl hv2
        fun s6 zs l' h6 h7 => hq s6 _ h6 (Ut.some (Ut.fhVar h7))

theorem firstBinding_ident {nm : Name} (h : t.value = .identifier nm) : t.firstBinding = true :=
  (firstBinding_iff t).2 (.inr (.inr ⟨nm, h⟩))

theorem firstBinding_isIdent (h : isIdent t.value = true) : t.firstBinding = true := by
  cases hv : t.value with
  | identifier nm => exact firstBinding_ident hv
  | _ => rw [hv] at h; cases h

theorem comp_forHeadLet {ds : Ast (.list .dtor)} {l : Loc}
    (hv : t.value = .identifier (.atom .«let»))
    (h : CHeadDtors S (env.withIn false) i1 (t2 :: rest) ds) (hv2 : t2.value = .semi) :
    CForHead S env (t :: i1) rest (.some (.fhLet l ds)) := by
  intro n Q s hs hq
  obtain ⟨y, ys, i2, rfl, hy, hn, hl⟩ := h ⟨_, _, rfl, hv2⟩
  unfold forBody
  refine .bind (.peek hs (.inl (inMode_of hv rfl)) fun s1 _ h1 => ?_)
  rw [hv]
  show cp (forLet (recOf n)) s1 _
  unfold forLet
  refine .bind (.reread h1 fun s2 _ h2 => ?_)
  rcases hy with ⟨t3, i, hi, rfl, hy⟩ | ⟨t3, i, t4, i3, e, hi, rfl, hv4, he, hy⟩
  · obtain ⟨nm, hv3, -, -⟩ := hi.value
    refine .bind (.peek h2 (.inl (inMode_of hv3 rfl)) fun s2' _ h2' => ?_)
    rw [firstBinding_ident hv3, if_neg (by decide)]
    unfold pattern
    refine .bind (.bind (.peek h2' (.inl (inMode_of hv3 rfl)) fun s3 _ h3 => ?_))
    rw [hv3]
    refine .bind (.id h3 (Ident.inIff.1 hi) fun s4 h4 => .pure ?_)
    rcases hn with ⟨t5, r5, rfl, hv5⟩ | ⟨t5, r5, rfl, hv5⟩
    · refine .bind (.peek h4 (.inl (inMode_of hv5 rfl)) fun s5 _ h5 => ?_)
      rw [hv5]
      exact .moreForHead h5 (by rw [hy]; exact Ut.dtSimple rfl) hl hv2 fun s6 zs l' h6 h7 =>
        hq s6 _ h6 (Ut.some (Ut.fhLet h7))
    · refine .bind (.peek h4 (.inl (inMode_of hv5 rfl)) fun s5 _ h5 => ?_)
      rw [hv5]
      exact .moreForHead h5 (by rw [hy]; exact Ut.dtSimple rfl) hl hv2 fun s6 zs l' h6 h7 =>
        hq s6 _ h6 (Ut.some (Ut.fhLet h7))
  · obtain ⟨nm, hv3, -, -⟩ := hi.value
    refine .bind (.peek h2 (.inl (inMode_of hv3 rfl)) fun s2' _ h2' => ?_)
    rw [firstBinding_ident hv3, if_neg (by decide)]
    unfold pattern
    refine .bind (.bind (.peek h2' (.inl (inMode_of hv3 rfl)) fun s3 _ h3 => ?_))
    rw [hv3]
    refine .bind (.id h3 (Ident.inIff.1 hi) fun s4 h4 => .pure ?_)
    refine .bind (.peek h4 (.inl (inMode_of hv4 rfl)) fun s5 _ h5 => ?_)
    rw [hv4]
    refine .bind (.reread h5 fun s6 _ h6 => ?_)
    refine (he n).allowIn.bind h6 fun e' s7 he' h7 => ?_
    exact .moreForHead h7 (by rw [hy]; exact Ut.dtSimple (Ut.some he')) hl hv2
      fun s6 zs l' h6 h7 => hq s6 _ h6 (Ut.some (Ut.fhLet h7))

theorem comp_forHeadConst {ds : Ast (.list .constDtor)} {l : Loc}
    (hv : t.value = .reserved .const)
    (h : CConstDtors S (env.withIn false) i1 (t2 :: rest) ds) (hv2 : t2.value = .semi) :
    CForHead S env (t :: i1) rest (.some (.fhConst l ds)) := by
  intro n Q s hs hq
  obtain ⟨y, ys, i2, rfl, ⟨t3, i, t4, i3, e, l2, hi, rfl, hv4, he, rfl⟩, hl⟩ := h
  unfold forBody
  refine .bind (.peek hs (.inl (inMode_of hv rfl)) fun s1 _ h1 => ?_)
  rw [hv]
  show cp (forConst (recOf n)) s1 _
  unfold forConst
  refine .bind (.reread h1 fun s2 _ h2 => ?_)
  obtain ⟨nm, hv3, -, -⟩ := hi.value
  refine .bind (.peek h2 (.inl (inMode_of hv3 rfl)) fun s2' _ h2' => ?_)
  rw [firstBinding_ident hv3, if_neg (by decide)]
  unfold pattern
  refine .bind (.bind (.peek h2' (.inl (inMode_of hv3 rfl)) fun s3 _ h3 => ?_))
  rw [hv3]
  refine .bind (.id h3 (Ident.inIff.1 hi) fun s4 h4 => .pure ?_)
  refine .bind (.peek h4 (.inl (inMode_of hv4 rfl)) fun s5 _ h5 => ?_)
  rw [hv4]
  refine .bind (.reread h5 fun s6 _ h6 => ?_)
  refine .bind (.allowIn h6 fun s7 _ h7 => ?_)
  unfold moreComma
  refine (he n).bind h7 fun e' s8 he' h8 => .loop fun N => ?_
  refine (hl n _ N s8 h8).mono fun zs s9 h9 => ?_
  obtain ⟨h10, h11⟩ := h9.first (Ut.constDtor (l' := l2) rfl he')
  refine ⟨_, h11, fun s10 h12 => ?_⟩
  exact .bind (.expect h12 hv2 fun s11 h13 => hq s11 _ h13 (Ut.some (Ut.fhConst h10)))

theorem comp_forHeadNone (hv : t.value = .semi) : CForHead S env (t :: rest) rest .none := by
  intro n Q s hs hq
  unfold forBody
  refine .bind (.peek hs (.inl (inMode_of hv rfl)) fun s1 _ h1 => ?_)
  rw [hv]
  exact .bind (.reread h1 fun s2 _ h2 => hq s2 .none h2 rfl)

/-! ### Expressions -/

theorem cp.forBodyExpr {Q : Stmt → PState → Prop} (hl : LetNoDivision inp) (hst : ForExprStart inp)
    (hf : NextSat (some exprStart) inp) (hs : Ahead S env s inp)
    (h : ∀ s', Ahead S env s' inp → cp (forExpr r) s' Q) : cp (forBody r) s Q := by
  obtain ⟨t, ts, rfl, h1, h2, h3⟩ := hst
  obtain ⟨t', r', hh, hv⟩ := hf
  obtain ⟨rfl, rfl⟩ := List.cons.inj hh
  unfold forBody
  refine .bind (.peek hs (.inl (inMode_of_start hv)) fun s1 _ h4 => ?_)
  by_cases hlet : t.value = .identifier (.atom .«let»)
  · obtain ⟨t2, r2, rfl, h5⟩ := h3 hlet
    have hd := hl t _ rfl hlet
    rw [hlet]
    show cp (forLet r) s1 _
    unfold forLet
    refine .bind (.reread h4 fun s2 hstr h6 => ?_)
    refine .bind (.peek h6 (.inl hd.inMode) fun s3 _ h7 => ?_)
    rw [if_pos (by
      cases hb : t2.firstBinding with
      | false => rfl
      | true => exact (h5 ((firstBinding_iff t2).1 hb)).elim)]
    exact .bind (.unread h7 hstr fun s4 _ h8 => h s4 h8)
  · have hc : t.value ≠ .reserved .const := ne_of_start hv
    split
    · rename_i hh; exact (h1 hh).elim
    · rename_i hh; exact (hlet hh).elim
    · rename_i hh; exact (hc hh).elim
    · rename_i hh; exact (h2 hh).elim
    · exact h s1 h4

theorem comp_forHeadExpr {l : Loc} (hl : LetNoDivision inp) (hst : ForExprStart inp)
    (hf : NextSat (some exprStart) inp)
    (h : ∀ n, Yields S (env.withIn false) (expression (recOf n)) inp (t :: rest) e)
    (hv : t.value = .semi) : CForHead S env inp rest (.some (.fhExpr l e)) := by
  intro n Q s hs hq
  refine .forBodyExpr hl hst hf hs fun s1 h1 => ?_
  unfold forExpr
  refine (h n).allowIn.bind h1 fun e' s2 he h2 => ?_
  refine .bind (.peek h2 (.inl (inMode_of hv rfl)) fun s3 _ h3 => ?_)
  rw [hv]
  exact .bind (.reread h3 fun s4 _ h4 => hq s4 _ h4 (Ut.some (Ut.fhExpr he)))

theorem comp_forInPatt {p : PattTarget} (hr : Patt.restFree p) (hl : LetNoDivision inp)
    (hst : ForExprStart inp) (hf : NextSat (some exprStart) inp)
    (h : ∀ n, Yields S (env.withIn false) (expression (recOf n)) inp rest (Patt.sourceExpr p)) :
    CForInHead S env inp rest (.fiPatt p) := by
  rintro t r rfl hv n Q s hs hq
  refine .forBodyExpr hl hst hf hs fun s1 h1 => ?_
  unfold forExpr
  refine (h n).allowIn.bind h1 fun e' s2 he h2 => ?_
  refine .bind (.peek h2 (.inl (inMode_of hv rfl)) fun s3 _ h3 => ?_)
  rw [hv]
  refine .bind (.reread h3 fun s4 _ h4 => ?_)
  exact .bind (.toPatt hr he fun p' hp => hq s4 _ h4 (Ut.fiPatt hp))

theorem comp_forOfPatt {p : PattTarget} (hr : Patt.restFree p) (hl : LetNoDivision inp)
    (hst : ForExprStart inp) (hf : NextSat (some exprStart) inp)
    (h : ∀ n, Yields S (env.withIn false) (expression (recOf n)) inp rest (Patt.sourceExpr p)) :
    CForOfHead S env inp rest (.foPatt p) := by
  rintro t r rfl hv n Q s hs hq
  refine .forBodyExpr hl hst hf hs fun s1 h1 => ?_
  unfold forExpr
  refine (h n).allowIn.bind h1 fun e' s2 he h2 => ?_
  refine .bind (.peek h2 (.inl (inMode_of hv rfl)) fun s3 _ h3 => ?_)
  rw [hv]
  refine .bind (.reread h3 fun s4 _ h4 => ?_)
  exact .bind (.toPatt hr he fun p' hp => hq s4 _ h4 (Ut.foPatt hp))

/-! ### Patterns -/

theorem comp_forInVarInit {i : Id} {l : Loc} (hv : t.value = .reserved .var)
    (hi : Ident env true t2 i) (hv3 : t3.value = .assign)
    (h : ∀ n, Yields S (env.withIn false) (recOf n).assign i1 rest e) :
    CForInHead S env (t :: t2 :: t3 :: i1) rest (.fiVarInit l i e) := by
  rintro t4 r rfl hv4 n Q s hs hq
  unfold forBody
  refine .bind (.peek hs (.inl (inMode_of hv rfl)) fun s1 _ h1 => ?_)
  rw [hv]
  show cp (forVar (recOf n)) s1 _
  unfold forVar
  refine .bind (.reread h1 fun s2 _ h2 => ?_)
  unfold pattern
  obtain ⟨nm, hv2, -, -⟩ := hi.value
  refine .bind (.bind (.peek h2 (.inl (inMode_of hv2 rfl)) fun s3 _ h3 => ?_))
  rw [hv2]
  refine .bind (.id h3 hi fun s4 h4 => .pure ?_)
  refine .bind (.peek h4 (.inl (inMode_of hv3 rfl)) fun s5 _ h5 => ?_)
  rw [hv3]
  refine .bind (.reread h5 fun s6 _ h6 => ?_)
  refine (h n).allowIn.bind h6 fun e' s7 he' h7 => ?_
  refine .bind (.peek h7 (.inl (inMode_of hv4 rfl)) fun s8 _ h8 => ?_)
  rw [hv4]
  exact .bind (.reread h8 fun s9 _ h9 => hq s9 _ h9 (Ut.fiVarInit he'))

theorem comp_forInVar {p : PattId} {l : Loc} (hv : t.value = .reserved .var)
    (hp : Yields S env pattern i1 rest p) : CForInHead S env (t :: i1) rest (.fiVar l p) := by
  rintro t4 r rfl hv4 n Q s hs hq
  unfold forBody
  refine .bind (.peek hs (.inl (inMode_of hv rfl)) fun s1 _ h1 => ?_)
  rw [hv]
  show cp (forVar (recOf n)) s1 _
  unfold forVar
  refine .bind (.reread h1 fun s2 _ h2 => ?_)
  refine hp.bind h2 fun p' s3 hp' h3 => ?_
  refine .bind (.peek h3 (.inl (inMode_of hv4 rfl)) fun s8 _ h8 => ?_)
  rw [hv4]
  exact .bind (.reread h8 fun s9 _ h9 => hq s9 _ h9 (Ut.fiVar hp'))

theorem comp_forOfVar {p : PattId} {l : Loc} (hv : t.value = .reserved .var)
    (hp : Yields S env pattern i1 rest p) : CForOfHead S env (t :: i1) rest (.foVar l p) := by
  rintro t4 r rfl hv4 n Q s hs hq
  unfold forBody
  refine .bind (.peek hs (.inl (inMode_of hv rfl)) fun s1 _ h1 => ?_)
  rw [hv]
  show cp (forVar (recOf n)) s1 _
  unfold forVar
  refine .bind (.reread h1 fun s2 _ h2 => ?_)
  refine hp.bind h2 fun p' s3 hp' h3 => ?_
  refine .bind (.peek h3 (.inl (inMode_of hv4 rfl)) fun s8 _ h8 => ?_)
  rw [hv4]
  exact .bind (.reread h8 fun s9 _ h9 => hq s9 _ h9 (Ut.foVar hp'))

theorem comp_forInLet {p : PattId} {l : Loc} (hv : t.value = .identifier (.atom .«let»))
    (hf : NextSat (some isIdent) i1)
    (hp : Yields S env pattern i1 rest p) : CForInHead S env (t :: i1) rest (.fiLet l p) := by
  rintro t4 r rfl hv4 n Q s hs hq
  obtain ⟨t2, r2, rfl, hv2⟩ := hf
  unfold forBody
  refine .bind (.peek hs (.inl (inMode_of hv rfl)) fun s1 _ h1 => ?_)
  rw [hv]
  show cp (forLet (recOf n)) s1 _
  unfold forLet
  refine .bind (.reread h1 fun s2 _ h2 => ?_)
  refine .bind (.peek h2 (.inl (inMode_of_start hv2)) fun s2' _ h2' => ?_)
  rw [firstBinding_isIdent hv2, if_neg (by decide)]
  refine hp.bind h2' fun p' s3 hp' h3 => ?_
  refine .bind (.peek h3 (.inl (inMode_of hv4 rfl)) fun s8 _ h8 => ?_)
  rw [hv4]
  exact .bind (.reread h8 fun s9 _ h9 => hq s9 _ h9 (Ut.fiLet hp'))

theorem comp_forOfLet {p : PattId} {l : Loc} (hv : t.value = .identifier (.atom .«let»))
    (hf : NextSat (some isIdent) i1)
    (hp : Yields S env pattern i1 rest p) : CForOfHead S env (t :: i1) rest (.foLet l p) := by
  rintro t4 r rfl hv4 n Q s hs hq
  obtain ⟨t2, r2, rfl, hv2⟩ := hf
  unfold forBody
  refine .bind (.peek hs (.inl (inMode_of hv rfl)) fun s1 _ h1 => ?_)
  rw [hv]
  show cp (forLet (recOf n)) s1 _
  unfold forLet
  refine .bind (.reread h1 fun s2 _ h2 => ?_)
  refine .bind (.peek h2 (.inl (inMode_of_start hv2)) fun s2' _ h2' => ?_)
  rw [firstBinding_isIdent hv2, if_neg (by decide)]
  refine hp.bind h2' fun p' s3 hp' h3 => ?_
  refine .bind (.peek h3 (.inl (inMode_of hv4 rfl)) fun s8 _ h8 => ?_)
  rw [hv4]
  exact .bind (.reread h8 fun s9 _ h9 => hq s9 _ h9 (Ut.foLet hp'))

theorem comp_forInConst {p : PattId} {l : Loc} (hv : t.value = .reserved .const)
    (hf : NextSat (some isIdent) i1)
    (hp : Yields S env pattern i1 rest p) : CForInHead S env (t :: i1) rest (.fiConst l p) := by
  rintro t4 r rfl hv4 n Q s hs hq
  obtain ⟨t2, r2, rfl, hv2⟩ := hf
  unfold forBody
  refine .bind (.peek hs (.inl (inMode_of hv rfl)) fun s1 _ h1 => ?_)
  rw [hv]
  show cp (forConst (recOf n)) s1 _
  unfold forConst
  refine .bind (.reread h1 fun s2 _ h2 => ?_)
  refine .bind (.peek h2 (.inl (inMode_of_start hv2)) fun s2' _ h2' => ?_)
  rw [firstBinding_isIdent hv2, if_neg (by decide)]
  refine hp.bind h2' fun p' s3 hp' h3 => ?_
  refine .bind (.peek h3 (.inl (inMode_of hv4 rfl)) fun s8 _ h8 => ?_)
  rw [hv4]
  exact .bind (.reread h8 fun s9 _ h9 => hq s9 _ h9 (Ut.fiConst hp'))

theorem comp_forOfConst {p : PattId} {l : Loc} (hv : t.value = .reserved .const)
    (hf : NextSat (some isIdent) i1)
    (hp : Yields S env pattern i1 rest p) : CForOfHead S env (t :: i1) rest (.foConst l p) := by
  rintro t4 r rfl hv4 n Q s hs hq
  obtain ⟨t2, r2, rfl, hv2⟩ := hf
  unfold forBody
  refine .bind (.peek hs (.inl (inMode_of hv rfl)) fun s1 _ h1 => ?_)
  rw [hv]
  show cp (forConst (recOf n)) s1 _
  unfold forConst
  refine .bind (.reread h1 fun s2 _ h2 => ?_)
  refine .bind (.peek h2 (.inl (inMode_of_start hv2)) fun s2' _ h2' => ?_)
  rw [firstBinding_isIdent hv2, if_neg (by decide)]
  refine hp.bind h2' fun p' s3 hp' h3 => ?_
  refine .bind (.peek h3 (.inl (inMode_of hv4 rfl)) fun s8 _ h8 => ?_)
  rw [hv4]
  exact .bind (.reread h8 fun s9 _ h9 => hq s9 _ h9 (Ut.foConst hp'))

end P

end Esprit
