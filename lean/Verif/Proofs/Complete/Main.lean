import Verif.Proofs.Complete.For

/-! The parser accepts what the grammar derives. -/

set_option linter.unusedSectionVars false
set_option linter.unusedVariables false

namespace Esprit

open Lex ReaderSpec Grammar

/-- The nonterminals of statements and their lists. -/
def Grammar.NT.isStmt : {c : Cat} → NT c → Bool
  | _, .items | _, .modItems | _, .item _ | _, .stmt | _, .decl => true
  | _, _ => false

set_option maxHeartbeats 1000000 in
/-- What follows the string that a statement starts with. -/
theorem Grammar.Derives.afterString {L : LocSpec} {env : Scope} {c : Cat} {nt : NT c}
    {inp rest : List Token} {x : Ast c}
    (h : Derives L env nt inp rest x) : env.plain = true → nt.isStmt = true → ∀ t r lit,
      inp = t :: r → t.value = .string lit → OpNext r := by
  induction h
  case exprStmt h _ _ _ =>
    intro hp _ t r lit he hv
    exact h.second hp t r he (by rw [hv]; rfl)
  case itemsCons ih _ => intro hp _ t r lit he hv; exact ih hp rfl t r lit he hv
  case modItemsCons ih _ => intro hp _ t r lit he hv; exact ih hp rfl t r lit he hv
  case itemStmt ih => intro hp _ t r lit he hv; exact ih hp rfl t r lit he hv
  case itemDecl ih => intro hp _ t r lit he hv; exact ih hp rfl t r lit he hv
  case itemsNil hm =>
    intro hp _ t r lit he hv
    obtain ⟨rfl, rfl⟩ := List.cons.inj he
    rw [hv] at hm
    simp [followsItems] at hm
  case labelStmt hi _ _ _ =>
    intro hp _ t r lit he hv
    obtain ⟨rfl, rfl⟩ := List.cons.inj he
    obtain ⟨nm, hv2, -, -⟩ := hi.value
    rw [hv] at hv2
    cases hv2
  case declFun h _ _ =>
    intro hp _ t r lit he hv
    obtain ⟨t', r', rfl, hv2⟩ := h.first
    obtain ⟨rfl, rfl⟩ := List.cons.inj he
    rw [hv] at hv2
    cases of_decide_eq_true hv2
  case blockStmt h _ =>
    intro hp _ t r lit he hv
    obtain ⟨t', r', rfl, hv2⟩ := h.first
    obtain ⟨rfl, rfl⟩ := List.cons.inj he
    rw [hv] at hv2
    cases of_decide_eq_true hv2
  all_goals first
    | (intro hp h; cases h; done)
    | (intro hp _ t r lit he hv
       obtain ⟨rfl, rfl⟩ := List.cons.inj he
       simp_all; done)

namespace P

variable [Env] [LawfulEnv] {S : Str} {L : LocSpec} {env : Scope} {s s1 s2 s' : PState}
  {t t0 t1 t2 t3 t4 t5 : Token}
  {ts inp rest i1 i2 i3 i4 : List Token} {c : Cat} {n N k : Nat}

theorem comp_modItemsNil (hv : t.value = .eof) :
    CItems S env .modItems (t :: rest) (t :: rest) .nil := by
  intro n acc N s hs
  refine .loopN fun M _ => ?_
  unfold moduleItemsStep
  refine .bind (.peek hs (.inl (inMode_of hv rfl)) fun s1 _ h1 => ?_)
  rw [hv]
  exact .nil h1

theorem comp_modItemsCons {x : StmtListItem} {xs : Ast (.list .modItem)}
    (h : ∀ n, Yields S env ((recOf n).item true) inp i1 x) (hf : NextSat (some stmtStart) inp)
    (ht : CItems S env .modItems i1 rest xs) :
    CItems S env .modItems inp rest (.cons (.miItem x) xs) := by
  intro n acc N s hs
  obtain ⟨t0, r0, rfl, hv0⟩ := hf
  refine .loopN fun M _ => ?_
  unfold moduleItemsStep
  refine .bind (.peek hs (.inl (inMode_of_start hv0)) fun s1 _ h1 => ?_)
  split
  · rename_i hh; rw [hh] at hv0; exact absurd hv0 (by decide)
  · rename_i hh; rw [hh] at hv0; exact absurd hv0 (by decide)
  · rename_i hh; rw [hh] at hv0; exact absurd hv0 (by decide)
  · refine (h n).bind h1 fun a s2 ha h2 => ?_
    exact (ht n _ _ _ h2).mono fun zs s' h4 => h4.cons (Ut.miItem ha)

theorem Comp.items {nt : NT (.list c)} {xs : Ast (.list c)} (h : Comp S env nt inp rest xs) :
    CItems S env nt inp rest xs := by
  cases nt <;> first | exact h | trivial

theorem noDivision_items {nt : NT (.list c)} {xs : Ast (.list c)} (h : Derives L env nt inp rest xs)
    (hn : isItems nt = true) : ∃ t r, inp = t :: r ∧ t.value.inMode false = true := by
  cases nt <;> first | cases hn; done | skip
  · obtain ⟨t, r, rfl, hv⟩ := h.first
    exact ⟨t, r, rfl, inMode_of_start (p := fun v => stmtStart v || decide (v ∈ followsItems)) hv⟩
  · obtain ⟨t, r, rfl, hv⟩ := h.first
    exact ⟨t, r, rfl, inMode_of_start (p := fun v => stmtStart v || decide (v = .eof)) hv⟩

theorem isStmt_of_isItems {nt : NT c} (h : isItems nt = true) : nt.isStmt = true := by
  cases nt <;> first | rfl | cases h

theorem NoDivision.items {nt : NT (.list c)} {xs : Ast (.list c)}
    (h : Derives L env nt inp rest xs) (hn : isItems nt = true) : NoDivision inp := by
  obtain ⟨t, r, rfl, hm⟩ := noDivision_items h hn
  exact .of rfl hm

theorem Comp.name {nt : NT c} {x : Ast c} {ps : Ast .params} {g : P (Ast c)}
    (h : Comp S env nt inp i1 x) (hd : Derives L env nt inp i1 x)
    (hp : Derives L env .params i1 rest ps) (hg : getIdOf nt = some g) :
    Yields S env g inp i1 x ∧
      ∃ t r, inp = t :: r ∧ t.value.inMode false = true ∧ t.value ≠ .star := by
  have hf := NextSat.is hp.first
  cases nt <;> first | (cases hg; done) | skip
  · cases hg
    obtain ⟨t, r, rfl, hv⟩ := hd.first
    exact ⟨h, t, r, rfl, inMode_of_start hv, ne_of_start hv⟩
  · cases hg
    refine ⟨h hf, ?_⟩
    cases hd with
    | nameNone =>
      obtain ⟨t, r, rfl, hv⟩ := hf
      exact ⟨t, r, rfl, inMode_of hv rfl, by rw [hv]; nofun⟩
    | nameSome hd =>
      obtain ⟨t, r, rfl, hv⟩ := hd.first
      exact ⟨t, r, rfl, inMode_of_start hv, ne_of_start hv⟩

theorem Comp.paramItems_eq {x : Ast .params} :
    Comp S env .paramItems inp rest x = CParamItems S env inp rest x := rfl

theorem Comp.prologue_eq {nt : NT (.list c)} {x : Ast (.body c)} :
    Comp S env (.prologue nt) inp rest x = CPrologue S env nt inp rest x := rfl


set_option maxHeartbeats 2000000 in
theorem comp {nt : NT c} {x : Ast c} (h : Derives L env nt inp rest x) :
    env.plain = true → Comp S env nt inp rest x := by
  induction h
  -- primary expressions
  case identifier hi => exact fun _ n => comp_identifier hi n
  case kNull hv => exact fun _ n => comp_literal (inMode_of hv rfl) (fun s h => by rw [hv]; exact ⟨rfl, h⟩) n
  case kThis hv => exact fun _ n => comp_literal (inMode_of hv rfl) (fun s h => by rw [hv]; exact ⟨rfl, h⟩) n
  case kTrue hv => exact fun _ n => comp_literal (inMode_of hv rfl) (fun s h => by rw [hv]; exact ⟨rfl, h⟩) n
  case kFalse hv => exact fun _ n => comp_literal (inMode_of hv rfl) (fun s h => by rw [hv]; exact ⟨rfl, h⟩) n
  case number hv => exact fun _ n => comp_literal (inMode_of hv rfl) (fun s h => by rw [hv]; exact ⟨rfl, h⟩) n
  case string hv => exact fun _ n => comp_literal (inMode_of hv rfl) (fun s h => by rw [hv]; exact ⟨rfl, h⟩) n
  case regExp hv => exact fun _ n => comp_literal (inMode_of hv rfl) (fun s h => by rw [hv]; exact ⟨rfl, h⟩) n
  case array hv h hv2 ih => exact fun hp n => comp_array hv (ih hp) hv2 n
  case object hv h hv2 ih => exact fun hp n => comp_object hv (ih hp) hv2 n
  case function h ih => exact fun hp n => comp_function (ih hp) h.first n
  case paren hv h hv2 ih => exact fun hp n => comp_paren hv (ih hp) hv2 n
  -- elements
  case elemsNil => exact fun _ hr => comp_elemsNil hr
  case elemsLast h ih => exact fun hp hr => comp_elemsLast (ih hp) h.first hr
  case elemsCons h hv h2 ih ih2 => exact fun hp hr => comp_elemsCons (ih hp) h.first hv (ih2 hp hr)
  case elemsHole hv h ih => exact fun hp hr => comp_elemsHole hv (ih hp hr)
  case argExpr h ih => exact fun hp n => comp_argExpr (ih hp) h.first n
  case argSpread hv h _ ih => exact fun hp n => comp_argSpread hv (ih hp) n
  -- properties
  case propsNil => exact fun _ hr => comp_propsNil hr
  case propsLast h ih => exact fun hp hr => comp_propsLast (ih hp) h.first hr
  case propsCons h hv h2 ih ih2 => exact fun hp hr => comp_propsCons (ih hp) h.first hv (ih2 hp hr)
  case propInit hk hv h ih => exact fun hp n => comp_propInit hk hv (ih hp) n
  case propShorthand hv hok hr => exact fun _ n => comp_propShorthand hv hok hr n
  case propMethod hk h h2 ih ih2 =>
    exact fun hp n => comp_propMethod hk (NextSat.is h.first) (ih hp) (ih2 hp) n
  case propGenerator hv hk h h2 ih ih2 => exact fun hp n => comp_propGenerator hv hk (ih hp) (ih2 hp) n
  case propGet hv hk hv1 hv2 h ih => exact fun hp n => comp_propGet hv hk hv1 hv2 (ih hp) n
  case propSet hv hk hv1 h hv2 h2 ih ih2 =>
    exact fun hp n => comp_propSet hv hk hv1 (ih hp) hv2 (ih2 hp) n
  -- functions
  case name hi => exact fun _ => comp_name hi
  case nameNone => exact fun _ hr => comp_nameNone hr
  case nameSome h ih => exact fun _ _ => comp_nameSome h
  case func hv h h2 h3 _ _ ih ih2 ih3 =>
    exact fun hp => comp_func hv (fun g hg => (ih hp).name h h2 hg) (ih2 hp) (ih3 hp)
  case funcGenerator hv hv2 h h2 h3 _ _ ih ih2 ih3 =>
    exact fun hp => comp_funcGenerator hv hv2 (fun g hg => ((ih hp).name h h2 hg).1) (ih2 hp) (ih3 hp)
  case pattern hi => exact fun _ => comp_pattern hi
  case paramsNil => exact fun _ => comp_paramsNil
  case paramsRest hv h _ ih =>
    intro hp
    rw [Comp.paramItems_eq]
    exact comp_paramsRest hv (ih hp)
  case paramsLast h ih => exact fun hp => comp_paramsLast (ih hp) h.first
  case paramsCons h hv h2 ih ih2 =>
    intro hp
    have ih2 := ih2 hp
    rw [Comp.paramItems_eq] at ih2
    rw [Comp.paramItems_eq]
    exact comp_paramsCons (ih hp) h.first hv ih2
  case params hv h hv2 _ ih => exact fun hp => comp_params hv (ih hp) hv2
  case functionBody hv h hv2 _ ih => exact fun hp => comp_functionBody hv (ih hp) hv2
  -- accessors
  case lhsPrimary calls h ih =>
    intro hp
    cases calls with
    | false => exact comp_memberPrimary (ih hp) h.first
    | true => exact comp_lhsPrimary (ih hp) h.first
  case newTarget calls _ _ _ _ hv hv2 hv3 =>
    intro hp
    cases calls with
    | false => exact comp_memberTarget hv hv2 hv3
    | true => exact comp_lhsTarget hv hv2 hv3
  case dot calls _ _ _ _ _ _ h hv hk ih =>
    intro hp
    cases calls with
    | false => exact comp_memberDot (ih hp) hv hk
    | true => exact comp_lhsDot (ih hp) hv hk
  case brack calls _ _ _ _ _ _ _ h hv h2 hv2 ih ih2 =>
    intro hp
    cases calls with
    | false => exact comp_memberBrack (ih hp) hv (ih2 hp) hv2
    | true => exact comp_lhsBrack (ih hp) hv (ih2 hp) hv2
  case call h hv h2 hv2 ih ih2 => exact fun hp => comp_call (ih hp) hv (ih2 hp) hv2
  case lhsNew h ih => exact fun hp => comp_lhsNew (ih hp)
  case newBaseMember hn h ih => exact fun hp => comp_newBaseMember hn (ih hp)
  case newBaseArgs h ih => exact fun hp => comp_newBaseArgs (ih hp)
  case newBaseNoArgs h ih => exact fun hp => comp_newBaseNoArgs (ih hp)
  case newArgs hv h hv2 h2 hv3 ih ih2 => exact fun hp => comp_newArgs hv (ih hp) hv2 (ih2 hp) hv3
  case newNoArgs hv h hn ih => exact fun hp => comp_newNoArgs hv (ih hp) hn
  case argListNil => exact fun _ => comp_argListNil
  case argList h ih => exact fun hp => comp_argList (ih hp) h.first
  case argsLast h ih => exact fun hp hr => comp_argsLast (ih hp) hr
  case argsCons h hv h2 ih ih2 => exact fun hp hr => comp_argsCons (ih hp) hv (ih2 hp hr)
  -- operators
  case postfixNone hn hpf h ih => exact fun hp ho n => comp_postfixNone hn hpf (ih hp) ho n
  case postInc h hv hnl ih => exact fun hp _ n => comp_postOp true (ih hp) hv hnl n
  case postDec h hv hnl ih => exact fun hp _ n => comp_postOp false (ih hp) hv hnl n
  case unaryPostfix h ih => exact fun hp => comp_unaryPostfix (ih hp) h.first
  case unop hop h ih => exact fun hp => comp_unop hop (ih hp)
  case preInc hv h ih => exact fun hp => comp_preOp true hv (ih hp)
  case preDec hv h ih => exact fun hp => comp_preOp false hv (ih hp)
  case binaryUnary h ih => exact fun hp => comp_binaryUnary (ih hp)
  case binaryUp _ h ih => exact fun hp => comp_binaryUp (ih hp)
  case binop h hop h2 ih ih2 => exact fun hp => comp_binop (ih hp) hop (ih2 hp)
  case logop h hop h2 ih ih2 => exact fun hp => comp_logop (ih hp) hop (ih2 hp)
  case condNone ho hn hq h ih =>
    intro hp
    refine fun n => comp_condNone ?_ hn hq (ih hp) n
    obtain ⟨t, r, rfl, -, -⟩ := hn
    exact ⟨t, r, rfl, NoRegExp.inMode ho⟩
  case cond h hv h1 hv2 h2 ih ih1 ih2 => exact fun hp n => comp_cond (ih hp) hv (ih1 hp) hv2 (ih2 hp) n
  case assignNone hn h ih =>
    intro hp
    refine comp_assignNone hn ?_ (ih hp)
    obtain ⟨t, r, rfl, -, h2⟩ := h.follow hp
    exact ⟨t, r, rfl, h2⟩
  case assign hr _ h hv h2 ih ih2 => exact fun hp => comp_assign (hr hp) (ih hp) hv (ih2 hp)
  case binAssign h hop h2 ih ih2 => exact fun hp => comp_binAssign (ih hp) hop (ih2 hp)
  case exprsLast hn h ih => exact fun hp => .last (ih hp) hn (h.follow hp rfl).noDivision
  case exprsCons h hv h2 ih ih2 => exact fun hp => .cons (ih hp) hv (ih2 hp)
  case exprOne hn h ih => exact fun hp n => comp_exprOne (ih hp) hn (h.follow hp rfl).noDivision n
  case exprSeq h _ ih => exact fun hp n => comp_exprSeq (ih hp) n
  -- bodies
  case directive hv hc ht _ h ih =>
    intro hp
    have ih := ih hp
    rw [Comp.prologue_eq] at ih
    rw [Comp.prologue_eq]
    exact comp_directive hv hc ht ih
  case prologueEnd hn hd h ih =>
    intro hp
    rw [Comp.prologue_eq]
    refine comp_prologueEnd hn hd (fun hi => ⟨noDivision_items h hi, ?_⟩) (ih hp).items
    intro t r lit he hv
    obtain ⟨t2, r2, h2, -⟩ := h.afterString hp (isStmt_of_isItems hi) t r lit he hv
    exact ⟨t2, r2, h2⟩
  case body h _ ih => exact ih
  case itemsNil hv => exact fun _ => comp_itemsNil hv
  case itemsCons h h2 ih ih2 =>
    exact fun hp => comp_itemsCons (ih hp (NoDivision.items h2 rfl)) h.first (ih2 hp)
  case modItemsNil hv => exact fun _ => comp_modItemsNil hv
  case modItemsCons h h2 ih ih2 =>
    exact fun hp => comp_modItemsCons (ih hp (NoDivision.items h2 rfl)) h.first (ih2 hp)
  case itemStmt h ih =>
    exact fun hp hd n => Yields.item (m := fun _ _ => P.unexpected) (fun n => (ih hp hd).1 n _) n
  case itemDecl h ih =>
    exact fun hp hd n => Yields.item (m := fun _ _ => P.unexpected) (ih hp hd) n
  -- declarations
  case declFun h _ ih => exact fun hp _ n => comp_declFun (ih hp) (NextSat.is h.first) n
  case declLet hv h ht _ ih => exact fun hp hd n => comp_declLet hv h.first (ih hp) ht hd n
  case declConst hv h ht _ ih => exact fun hp hd n => comp_declConst hv (ih hp) ht hd n
  case dtorNone hn hi _ => exact fun _ hd n => comp_dtorNone hn hi hd n
  case dtorInit hi hv h _ ih => exact fun hp _ n => comp_dtorInit hi hv (ih hp) n
  case dtorsLast hn h ih => exact fun hp hd => .last (ih hp hd) hn hd
  case dtorsCons h hv h2 ih ih2 => exact fun hp hd => .cons (ih hp (.of hv rfl)) hv (ih2 hp hd)
  case constDtor h hv h2 ih ih2 => exact fun hp => comp_constDtor h hv (ih2 hp)
  case constDtorsLast hn h ih =>
    exact fun hp => comp_constDtorsLast (ih hp) hn (h.follow hp rfl).noDivision
  case constDtorsCons h hv h2 ih ih2 => exact fun hp => comp_constDtorsCons (ih hp) hv (ih2 hp)
  -- statements
  case block hv h hv2 _ ih => exact fun hp n => comp_block hv (ih hp) hv2 n
  case blockStmt h ih => exact fun hp => comp_blockStmt (ih hp) (NextSat.is h.first)
  case varStmt hv h ht _ ih => exact fun hp => comp_varStmt hv (ih hp) ht
  case emptyStmt hv _ => exact fun _ => comp_emptyStmt hv
  case exprStmt hs h ht _ ih =>
    exact fun hp => comp_exprStmt hs (ih hp) h.first (fun t r he hw => h.second hp t r he hw) ht
  case ifStmt hv hv2 h hv3 h2 hn _ ih ih2 => exact fun hp => comp_ifStmt hv hv2 (ih hp) hv3 (ih2 hp) hn
  case ifElseStmt hv hv2 h hv3 h2 hv4 h3 _ ih ih2 ih3 =>
    exact fun hp => comp_ifElseStmt hv hv2 (ih hp) hv3 (ih2 hp) hv4 (ih3 hp)
  case doStmt hv h hv2 hv3 h2 hv4 ht _ ih ih2 =>
    exact fun hp => comp_doStmt hv (ih hp) hv2 hv3 (ih2 hp) hv4 ht
  case whileStmt hv hv2 h hv3 h2 _ ih ih2 => exact fun hp => comp_whileStmt hv hv2 (ih hp) hv3 (ih2 hp)
  case forStmt hv hv2 h h1 hv3 h2 hv4 h3 _ ih ih1 ih2 ih3 =>
    exact fun hp => comp_forStmt hv hv2 (ih hp) (ih1 hp) hv3 (ih2 hp) hv4 (ih3 hp)
  case forInStmt hv hv2 h hv3 h1 hv4 h2 _ ih ih1 ih2 =>
    exact fun hp => comp_forInStmt hv hv2 (ih hp) hv3 (ih1 hp) hv4 (ih2 hp)
  case forOfStmt hv hv2 h hv3 h1 hv4 h2 _ ih ih1 ih2 =>
    exact fun hp => comp_forOfStmt hv hv2 (ih hp) hv3 (ih1 hp) hv4 (ih2 hp)
  case exprOptNone => exact fun _ => .inl ⟨rfl, rfl⟩
  case exprOptSome h ih => exact fun hp => .inr ⟨_, rfl, h.first, ih hp⟩
  case headDtorNone hi => exact fun _ => comp_headDtorNone hi
  case headDtorInit hi hv h ih => exact fun hp => comp_headDtorInit hi hv (ih hp)
  case headDtorsLast h ih => exact fun hp => comp_headDtorsLast (ih hp)
  case headDtorsCons h hv h2 ih ih2 => exact fun hp => comp_headDtorsCons (ih hp) hv (ih2 hp)
  case forHeadNone hv => exact fun _ => comp_forHeadNone hv
  case forHeadVar hv h hv2 ih => exact fun hp => comp_forHeadVar hv (ih hp) hv2
  case forHeadLet hv h hv2 ih => exact fun hp => comp_forHeadLet hv (ih hp) hv2
  case forHeadConst hv h hv2 ih => exact fun hp => comp_forHeadConst hv (ih hp) hv2
  case forHeadExpr hl hs h hv ih => exact fun hp => comp_forHeadExpr hl hs h.first (ih hp) hv
  case forInVarInit hv hi hv3 h ih => exact fun hp => comp_forInVarInit hv hi hv3 (ih hp)
  case forInVar hv h ih => exact fun hp => comp_forInVar hv (ih hp)
  case forInLet hv h ih => exact fun hp => comp_forInLet hv h.first (ih hp)
  case forInConst hv h ih => exact fun hp => comp_forInConst hv h.first (ih hp)
  case forInPatt hl hr _ hs h ih =>
    exact fun hp => comp_forInPatt (hr hp) hl hs h.first (ih hp)
  case forOfVar hv h ih => exact fun hp => comp_forOfVar hv (ih hp)
  case forOfLet hv h ih => exact fun hp => comp_forOfLet hv h.first (ih hp)
  case forOfConst hv h ih => exact fun hp => comp_forOfConst hv h.first (ih hp)
  case forOfPatt hl hr _ hs h ih =>
    exact fun hp => comp_forOfPatt (hr hp) hl hs h.first (ih hp)
  -- jumps
  case breakNone hv hn hb ht _ => exact fun _ => comp_breakNone hv hn hb ht
  case breakLabel hv hn hi hb ht _ => exact fun _ => comp_breakLabel hv hn hi hb ht
  case continueNone hv hn hb ht _ => exact fun _ => comp_continueNone hv hn hb ht
  case continueLabel hv hn hi hb ht _ => exact fun _ => comp_continueLabel hv hn hi hb ht
  case returnNone hv hn hb ht _ => exact fun _ => comp_returnNone hv hn hb ht
  case returnExpr hv hn hb h ht _ ih => exact fun hp => comp_returnExpr hv hn hb (ih hp) h.first ht
  case throwStmt hv hn h ht _ ih => exact fun hp => comp_throwStmt hv hn (ih hp) h.first ht
  -- the rest
  case withStmt hv hst hv2 h hv3 h2 _ ih ih2 =>
    exact fun hp => comp_withStmt hv hst hv2 (ih hp) hv3 (ih2 hp)
  case switchStmt hv hv2 h hv3 hv4 h2 hv5 hl _ ih ih2 =>
    exact fun hp => comp_switchStmt hv hv2 (ih hp) hv3 hv4 (ih2 hp) hv5 hl
  case casesNil => exact fun _ => comp_casesNil
  case casesCons h h2 ih ih2 =>
    refine fun hp => comp_casesCons (ih hp) ?_ (ih2 hp)
    cases h with
    | case hv _ _ _ _ => exact ⟨_, _, rfl, hv⟩
    | default hv _ _ _ => exact ⟨_, _, rfl, hv⟩
  case case hv h hv2 h2 _ ih ih2 => exact fun hp => comp_case hv (ih hp) hv2 (ih2 hp)
  case default hv hv2 h _ ih => exact fun hp => comp_default hv hv2 (ih hp)
  case labelStmt hn hi hv h ih => exact fun hp => comp_labelStmt (hn hp) hi hv (ih hp)
  case tryStmt hv h h2 h3 hne _ ih ih2 ih3 =>
    intro hp
    refine comp_tryStmt hv (ih hp) (ih2 hp ?_) (ih3 hp) ?_
    · rintro rfl
      cases h3 with
      | finallyNone => exact (hne.elim (fun h => h rfl) (fun h => h rfl)).elim
      | finallySome hv _ => exact ⟨_, _, rfl, hv⟩
    · cases h2 with
      | catchSome hv _ _ _ _ _ => exact .inl ⟨_, _, rfl, hv⟩
      | catchNone =>
        cases h3 with
        | finallyNone => exact (hne.elim (fun h => h rfl) (fun h => h rfl)).elim
        | finallySome hv _ => exact .inr ⟨_, _, rfl, hv⟩
  case catchNone => exact fun _ hr => comp_catchNone (hr rfl)
  case catchSome hv hv2 h hv3 h2 _ ih ih2 =>
    exact fun hp _ n => comp_catchSome hv hv2 (ih hp) hv3 (ih2 hp) n
  case finallyNone hn => exact fun _ hd n => comp_finallyNone hn hd n
  case finallySome hv h ih => exact fun hp _ n => comp_finallySome hv (ih hp) n
  case debuggerStmt hv ht _ => exact fun _ => comp_debuggerStmt hv ht

end P

end Esprit
