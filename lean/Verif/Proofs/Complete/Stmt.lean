import Verif.Proofs.Complete.Function

/-! Statements and declarations. -/

set_option linter.unusedSectionVars false
set_option linter.unusedVariables false

namespace Esprit

open Lex ReaderSpec Grammar

theorem Labels.get_inserts' (ids : List Id) (ls : Labels) (m : Name) (t : LabelType) :
    ((∃ i ∈ ids, Id.name i = m) → (ids.foldl (fun ls i => ls.insert i.name t) ls).get m = some t) ∧
    ((∀ i ∈ ids, Id.name i ≠ m) → (ids.foldl (fun ls i => ls.insert i.name t) ls).get m = ls.get m) := by
  induction ids generalizing ls with
  | nil => exact ⟨by simp, fun _ => rfl⟩
  | cons i ids ih =>
    simp only [List.foldl_cons]
    obtain ⟨h1, h2⟩ := ih (ls.insert i.name t)
    constructor
    · rintro ⟨j, hj, rfl⟩
      by_cases hex : ∃ k ∈ ids, Id.name k = j.name
      · exact h1 hex
      · rw [h2 (fun k hk he => hex ⟨k, hk, he⟩), get_insert]
        rcases List.mem_cons.1 hj with rfl | hj
        · rw [if_pos rfl]
        · exact (hex ⟨j, hj, rfl⟩).elim
    · intro h
      rw [h2 (fun k hk => h k (by simp [hk])), get_insert,
        if_neg (fun he => h i (by simp) he.symm)]

theorem wrapLabels_untrack {a x : Stmt} (h : a.untrack = x.untrack) :
    ∀ ids : List Id, (wrapLabels ids a).untrack = (wrapLabels ids x).untrack := by
  intro ids
  induction ids with
  | nil => exact h
  | cons i ids ih => rw [wrapLabels_cons, wrapLabels_cons]; exact Ut.sLabel ih

theorem wrapLabels_snoc {i : Id} {x : Stmt} {l : Loc} : ∀ ids : List Id,
    (wrapLabels (ids ++ [i]) x).untrack = (wrapLabels ids (.sLabel l i x)).untrack
  | [] => Ut.sLabel rfl
  | j :: ids => by
    rw [List.cons_append, wrapLabels_cons, wrapLabels_cons]
    exact Ut.sLabel (wrapLabels_snoc ids)

theorem Grammar.NoDivision.of {t : Token} {r : List Token} {v : TokenData} (h : t.value = v)
    (hv : v.inMode false = true) : NoDivision (t :: r) := by
  intro t' r' he
  obtain ⟨rfl, rfl⟩ := List.cons.inj he
  rw [h]
  constructor <;> (rintro rfl; cases hv)

theorem Grammar.Term.next {b : Bool} {ts rest : List Token} {semi : Semi} (h : Term b ts rest semi)
    (hd : NoDivision rest) : ∃ t r, ts = t :: r ∧ t.value.inMode false = true := by
  cases h with
  | explicit hv => exact ⟨_, _, rfl, by rw [hv]; rfl⟩
  | inserted hv => exact ⟨_, _, rfl, hd.inMode⟩

namespace P

variable [Env] [LawfulEnv] {S : Str} {L : LocSpec} {env : Scope} {s s1 s2 s' : PState}
  {t t0 t1 t2 t3 t4 t5 : Token}
  {ts inp rest i1 i2 i3 i4 : List Token} {α β γ : Type} {c : Cat} {r : Rec} {n N k : Nat}
  {e e1 e2 a d : Expr} {x x2 : Stmt} {semi : Semi} {l : Loc}

/-- `stmtListItem` after peeking. -/
def dispatch (r : Rec) (allowDecl : Bool) : TokenData → P StmtListItem
  | .reserved .function =>
    if !allowDecl then unexpected
    else do
      let d ← functionDeclaration r
      pure (.siDecl d)
  | .lBrace => asItem (do let b ← block r; pure (.sBlock b))
  | .reserved .var => asItem (varStatement r)
  | .reserved .const =>
    if !allowDecl then unexpected
    else do
      let d ← constDeclaration r
      pure (.siDecl d)
  | .semi => asItem emptyStatement
  | .reserved .if => asItem (ifStatement r)
  | .reserved .continue => asItem continueStatement
  | .reserved .break => asItem breakStatement
  | .reserved .return => asItem (returnStatement r)
  | .reserved .with => asItem (withStatement r)
  | .reserved .switch => asItem (switchStatement r)
  | .reserved .throw => asItem (throwStatement r)
  | .reserved .try => asItem (tryStatement r)
  | .reserved .while => asItem (whileStatement r)
  | .reserved .do => asItem (doStatement r)
  | .reserved .for => asItem (forStatement r)
  | .reserved .debugger => asItem debuggerStatement
  | .identifier _ => identifierItem r allowDecl
  | _ => asItem (expressionStatement r)

theorem stmtListItem_eq (r : Rec) (d : Bool) :
    stmtListItem r d = peek >>= fun t => dispatch r d t.value := rfl

/-- A loop starts with this token. -/
def loopStart : TokenData → Bool
  | .reserved .do | .reserved .while | .reserved .for => true
  | _ => false

theorem labelType_loopStart : t.labelType = if loopStart t.value then .iteration else .statement := by
  unfold Token.labelType
  split
  · rename_i h; rw [h]; rfl
  · rename_i h; rw [h]; rfl
  · rename_i h; rw [h]; rfl
  · rename_i h1 h2 h3
    unfold loopStart
    split
    · rename_i h; exact (h1 h).elim
    · rename_i h; exact (h2 h).elim
    · rename_i h; exact (h3 h).elim
    · rfl

/-- How a statement without labels starts. -/
def Unlabelled (inp : List Token) (x : Stmt) : Prop :=
  ∃ t r, inp = t :: r ∧ t.value.inMode false = true ∧ isLoop x = loopStart t.value ∧
    (isIdent t.value = true → ∃ t2 r2, r = t2 :: r2 ∧ t2.value ≠ .colon ∧ t2.value.inMode true = true)

theorem item_stmt {a : StmtListItem} (h : a.untrack = (Ast.siStmt x).untrack) :
    ∃ y, a = .siStmt y ∧ y.untrack = x.untrack := by
  cases a with
  | siStmt y => exact ⟨y, rfl, by injection h⟩
  | siDecl d => cases h

theorem Yields.item {m : Rec → Bool → P StmtListItem} {y : StmtListItem} {b : Bool}
    (h : ∀ n, Yields S env (stmtListItem (recOf n) b) inp rest y) (n : Nat) :
    Yields S env ((recOf n).item b) inp rest y := by
  intro s hs
  cases n with
  | zero => trivial
  | succ n => exact h n s hs

theorem Yields.statement (h : ∀ n, Yields S env (stmtListItem (recOf n) false) inp rest (.siStmt x))
    (n : Nat) : Yields S env (P.statement (recOf n)) inp rest x := by
  intro s hs
  unfold P.statement
  refine (Yields.item (m := fun _ _ => P.unexpected) h n).bind hs fun a s1 ha h1 => ?_
  obtain ⟨y, rfl, hy⟩ := item_stmt ha
  exact ⟨hy, h1⟩

theorem CStmt.statement (h : CStmt S env inp rest x) (hd : NoDivision rest) (n : Nat) :
    Yields S env (P.statement (recOf n)) inp rest x :=
  Yields.statement (fun n => (h hd).1 n false) n

theorem cp.withLabels {env0 : Scope} {ids : List Id} {lp : Bool} (hs : Ahead S env0 s inp)
    (hn : ∀ i ∈ ids, ∀ b, (Id.name i, b) ∉ env0.labels)
    (h : Yields S (env0.labelAll lp ids) (P.statement (recOf n)) inp rest x) :
    cp (P.withLabels ids (if lp then .iteration else .statement) (P.statement (recOf n))) s
      fun a s' => a.untrack = (wrapLabels ids x).untrack ∧ Ahead S env0 s' rest := by
  unfold P.withLabels
  refine .modify_bind ?_
  refine h.bind (hs.change rfl ?_) fun a s1 ha h1 => .modify_bind ⟨wrapLabels_untrack ha ids, ?_⟩
  · obtain ⟨a1, a2, a3, a4, a5, a6, a7⟩ := hs.fits
    rw [Scope.labelAll_eq]
    refine ⟨a1, a2, a3, a4, a5, a6, ?_⟩
    intro m b hm
    rcases List.mem_append.1 hm with hm | hm
    · obtain ⟨i, hi, he⟩ := List.mem_map.1 (List.mem_reverse.1 hm)
      cases he
      exact (Labels.get_inserts' ids _ _ _).1 ⟨i, hi, rfl⟩
    · have : ∀ i ∈ ids, Id.name i ≠ m := by rintro i hi rfl; exact hn i hi b hm
      show Labels.get _ _ = _
      rw [(Labels.get_inserts' ids _ _ _).2 this]
      exact a7 m b hm
  · refine h1.change rfl ?_
    have hf := h1.fits
    rw [Scope.labelAll_eq] at hf
    obtain ⟨a1, a2, a3, a4, a5, a6, a7⟩ := hf
    refine ⟨a1, a2, a3, a4, a5, a6, ?_⟩
    intro m b hm
    have : ∀ i ∈ ids, Id.name i ≠ m := by rintro i hi rfl; exact hn i hi b hm
    exact (Labels.get_removes _ _ _ _).2 ⟨this, a7 m b (List.mem_append_right _ hm)⟩

theorem CStmt.of (hu : Unlabelled inp x)
    (h : NoDivision rest → ∀ n d, Yields S env (stmtListItem (recOf n) d) inp rest (.siStmt x)) :
    CStmt S env inp rest x := by
  intro hd
  refine ⟨h hd, ?_⟩
  rintro env0 acc rfl hn n N s hs
  obtain ⟨t, r, rfl, hm, hl, hc⟩ := hu
  have hlab : ∀ s1, Ahead S env0 s1 (t :: r) → cp (afterLabels (recOf n) acc) s1
      (fun a s' => a.untrack = (wrapLabels acc x).untrack ∧ Ahead S env0 s' rest) := by
    intro s1 h1
    unfold afterLabels
    refine .bind (.peek h1 (.inl hm) fun s2 _ h2 => ?_)
    rw [labelType_loopStart, ← hl]
    exact .withLabels h2 hn (Yields.statement (fun n => h hd n false) n)
  refine .loopN_bind fun M _ => ?_
  unfold labelStep
  refine .bind (.peek hs (.inl hm) fun s1 _ h1 => ?_)
  split
  · rename_i nm hv
    refine .bind (.rereadToken h1 fun s2 hstr h2 => ?_)
    obtain ⟨t2, r2, rfl, hne, hm2⟩ := hc (by rw [hv]; rfl)
    refine .bind (.matchesOpNo h2 hne (.inl hm2) fun s3 _ h3 => ?_)
    exact .bind (.unread h3 hstr fun s4 _ h4 => hlab s4 h4)
  · exact hlab s1 h1

/-- Statements that start with a certain token. -/
theorem CStmt.simple {f : Rec → P Stmt} {v : TokenData} (hv : t.value = v)
    (he : ∀ r d, dispatch r d v = asItem (f r))
    (hm : v.inMode false = true) (hi : isIdent v = false) (hl : isLoop x = loopStart v)
    (h : NoDivision rest → ∀ n, Yields S env (f (recOf n)) (t :: i1) rest x) :
    CStmt S env (t :: i1) rest x := by
  refine .of ⟨t, i1, rfl, by rw [hv]; exact hm, by rw [hv]; exact hl,
    by rw [hv, hi]; intro h; cases h⟩ fun hd n d s hs => ?_
  rw [stmtListItem_eq]
  refine .bind (.peek hs (.inl (by rw [hv]; exact hm)) fun s1 _ h1 => ?_)
  rw [hv, he]
  exact (h hd n).bind h1 fun a s2 ha h2 => ⟨Ut.siStmt ha, h2⟩

theorem cp.newIdFromToken {b : Bool} {i : Id} {Q : Id → PState → Prop} (hs : Ahead S env s ts)
    (hi : Ident env b t i) (hq : ∀ s', s'.la = s.la → Ahead S env s' ts → Q i s') :
    cp (P.newIdFromToken b t) s Q := by
  obtain ⟨nm, hv, rfl, hok⟩ := hi.value
  unfold P.newIdFromToken
  rw [hv]
  exact .newId hs hok hq

theorem comp_labelStmt {i : Id} (hn : ∀ b, (i.name, b) ∉ env.labels) (hi : Ident env false t i)
    (hv : t2.value = .colon) (h : CStmt S (env.label i.name (isLoop x)) i1 rest x) :
    CStmt S env (t :: t2 :: i1) rest (.sLabel l i x) := by
  intro hd
  obtain ⟨nm, hvt, -, -⟩ := hi.value
  obtain ⟨hA, hB⟩ := h hd
  constructor
  · intro n d s hs
    rw [stmtListItem_eq]
    refine .bind (.peek hs (.inl (inMode_of hvt rfl)) fun s1 _ h1 => ?_)
    rw [hvt]
    show cp (identifierItem (recOf n) d) s1 _
    unfold identifierItem
    refine .bind (.rereadToken h1 fun s2 hstr h2 => ?_)
    refine .bind (.peekOp h2 (.inl (inMode_of hv rfl)) fun s3 _ h3 => ?_)
    rw [hv]
    refine .bind (.newIdFromToken h3 hi fun s4 _ h4 => ?_)
    refine .bind (.bind (.reread h4 fun s5 _ h5 => ?_))
    refine .loop_bind (f := afterLabels (recOf n)) fun N => ?_
    refine (hB env [i] rfl (by simpa using hn) n N s5 h5).mono fun a s6 ⟨ha, h6⟩ => ?_
    exact ⟨Ut.siStmt (by rw [ha]; exact Ut.sLabel rfl), h6⟩
  · rintro env0 acc rfl hn0 n N s hs
    refine .loopN_bind fun M _ => ?_
    unfold labelStep
    refine .bind (.peek hs (.inl (inMode_of hvt rfl)) fun s1 _ h1 => ?_)
    rw [hvt]
    refine .bind (.rereadToken h1 fun s2 hstr h2 => ?_)
    refine .bind (.matchesOpYes h2 hv fun s3 h3 => ?_)
    have hi0 : Ident env0 false t i := by
      rw [Scope.labelAll_eq] at hi
      cases hi with
      | mk hv hid => exact .mk hv hid
    rw [if_neg (by decide)]
    refine .bind (.newIdFromToken h3 hi0 fun s4 _ h4 => ?_)
    refine (hB env0 (acc ++ [i]) ?_ ?_ n M s4 h4).mono fun a s5 ⟨ha, h5⟩ => ⟨?_, h5⟩
    · rw [Scope.labelAll_eq, Scope.labelAll_eq]
      simp [Scope.label, isLoop]
    · intro j hj b
      rcases List.mem_append.1 hj with hj | hj
      · exact hn0 j hj b
      · rw [List.mem_singleton.1 hj]
        intro hh
        refine hn b ?_
        rw [Scope.labelAll_eq]
        exact List.mem_append_right _ hh
    · rw [ha]
      exact wrapLabels_snoc acc

/-! ### Expression statements -/

theorem dispatch_expr {r : Rec} {b : Bool} {v : TokenData} (h1 : v ∉ statementStarts)
    (h2 : isIdent v = false) : dispatch r b v = asItem (expressionStatement r) := by
  unfold dispatch
  split <;> first
    | rfl
    | (cases h2; done)
    | (exact absurd (by simp [statementStarts]) h1)

theorem loopStart_expr {v : TokenData} (h1 : v ∉ statementStarts) : loopStart v = false := by
  unfold loopStart
  split <;> first
    | rfl
    | (exact absurd (by simp [statementStarts]) h1)

theorem Yields.expressionStatement
    (h : ∀ n, Yields S (env.withIn true) (expression (recOf n)) inp i1 e)
    (ht : Term false i1 rest semi) (hd : NoDivision rest) (n : Nat) :
    Yields S env (P.expressionStatement (recOf n)) inp rest (.sExpr l e semi) := by
  intro s hs
  unfold P.expressionStatement
  refine .posn_bind ((h n).allowIn.bind hs fun a s1 ha h1 => ?_)
  exact .endWithAutoSemi (nl := .required) h1 ht (fun _ => hd) fun l' semi' s2 h2 =>
    ⟨Ut.sExpr ha, h2⟩

theorem comp_exprStmt (hs : ExprStmtStart inp)
    (h : ∀ n, Yields S (env.withIn true) (expression (recOf n)) inp i1 e)
    (hf : NextSat (some exprStart) inp)
    (h2 : ∀ t r, inp = t :: r → isWord t.value = true → OpNext r)
    (ht : Term false i1 rest semi) : CStmt S env inp rest (.sExpr l e semi) := by
  obtain ⟨t, r, rfl, hst, hid⟩ := hs
  obtain ⟨t', r', hh, hv⟩ := hf
  obtain ⟨rfl, rfl⟩ := List.cons.inj hh
  have hm : t.value.inMode false = true := inMode_of_start hv
  refine .of ⟨t, r, rfl, hm, by rw [loopStart_expr hst]; unfold isLoop; rfl, fun hi => ?_⟩ fun hd n d s hs => ?_
  · cases hvt : t.value with
    | identifier nm =>
      obtain ⟨t2, r2, rfl, h3, -⟩ := hid ⟨nm, hvt⟩
      obtain ⟨t3, r3, hh, h4⟩ := h2 t _ rfl (by rw [hvt]; rfl)
      obtain ⟨rfl, rfl⟩ := List.cons.inj hh
      exact ⟨t2, r2, rfl, h3, h4⟩
    | _ => rw [hvt] at hi; cases hi
  · rw [stmtListItem_eq]
    refine .bind (.peek hs (.inl hm) fun s1 _ h1 => ?_)
    have hE := Yields.expressionStatement (l := l) h ht hd n
    cases hvt : isIdent t.value with
    | false =>
      rw [dispatch_expr hst hvt]
      exact hE.bind h1 fun a s2 ha h2 => ⟨Ut.siStmt ha, h2⟩
    | true =>
      have ⟨nm, hvt⟩ : ∃ nm, t.value = .identifier nm := by
        cases hv' : t.value <;> rw [hv'] at hvt <;> first | exact ⟨_, rfl⟩ | cases hvt
      obtain ⟨t2, r2, rfl, h3, hlet⟩ := hid ⟨nm, hvt⟩
      obtain ⟨t3, r3, hh, h4⟩ := h2 t _ rfl (by rw [hvt]; rfl)
      obtain ⟨rfl, rfl⟩ := List.cons.inj hh
      have hd2 : dispatch (recOf n) d t.value = identifierItem (recOf n) d := by rw [hvt]; rfl
      rw [hd2]
      unfold identifierItem
      refine .bind (.rereadToken h1 fun s2 hstr h5 => ?_)
      refine .bind (.peekOp h5 (.inl h4) fun s3 _ h6 => ?_)
      have hcase : cp (do unread t
                          let s ← P.expressionStatement (recOf n)
                          pure (Ast.siStmt s)) s3 (fun a s' =>
          a.untrack = (Ast.siStmt (Ast.sExpr l e semi)).untrack ∧ Ahead S env s' rest) := by
        refine .bind (.unread h6 hstr fun s4 _ h7 => ?_)
        exact hE.bind h7 fun a s2 ha h2 => ⟨Ut.siStmt ha, h2⟩
      have hlc : ∀ hb : StartsBinding t2, cp
          (if t.value.eqv (.identifier (.atom .«let»)) then
            if !d then unexpected
            else do
              let d ← letDeclaration (recOf n) t.location.start
              pure (.siDecl d)
          else do
            unread t
            let s ← P.expressionStatement (recOf n)
            pure (Ast.siStmt s)) s3 (fun a s' =>
          a.untrack = (Ast.siStmt (Ast.sExpr l e semi)).untrack ∧ Ahead S env s' rest) := by
        intro hb
        rw [eqv_false rfl (fun hh => hlet hh hb), if_neg (by decide)]
        exact hcase
      cases hv2 : t2.value with
      | colon => exact (h3 hv2).elim
      | identifier nm' => exact hlc (.inr (.inr ⟨_, hv2⟩))
      | lBrace => exact hlc (.inl hv2)
      | lBrack => exact hlc (.inr (.inl hv2))
      | _ => exact hcase

/-! ### Blocks and declarations -/

theorem comp_block {xs : Ast (.list .sitem)} (hv : t.value = .lBrace)
    (h : CItems S env .items i1 (t2 :: rest) xs) (hv2 : t2.value = .rBrace) (n : Nat) :
    Yields S env (block (recOf n)) (t :: i1) rest (.block l xs) := by
  intro s hs
  unfold block statementList
  refine .span (.bind (.expect hs hv fun s1 h1 => ?_))
  refine .bind (.loop fun N => (h n [] N s1 h1).mono fun zs s2 h2 => ?_)
  obtain ⟨h3, h4⟩ := h2.start
  exact .bind (.expect h4 hv2 fun s3 h5 l => ⟨Ut.block h3, h5⟩)

theorem comp_blockStmt {b : Ast .block} (h : ∀ n, Yields S env (block (recOf n)) inp rest b)
    (hf : NextIs inp .lBrace) : CStmt S env inp rest (.sBlock b) := by
  obtain ⟨t, r, rfl, hv⟩ := hf
  refine .simple (f := fun r => do let b ← block r; pure (.sBlock b)) hv (fun _ _ => rfl) rfl rfl (by unfold isLoop; rfl)
    fun hd n s hs => ?_
  exact (h n).bind hs fun a s1 ha h1 => ⟨Ut.sBlock ha, h1⟩

theorem comp_dtorNone {i : Id} (hn : NextIsNot rest .assign) (hi : Ident env true t i)
    (hd : NoDivision rest) (n : Nat) :
    Yields S env (declarator (recOf n)) (t :: rest) rest (.dtSimple l i .none) := by
  intro s hs
  obtain ⟨nm, hv, -, -⟩ := hi.value
  obtain ⟨t2, r2, rfl, hv2⟩ := hn
  unfold declarator
  refine .span (.bind (.peek hs (.inl (inMode_of hv rfl)) fun s1 _ h1 => ?_))
  rw [hv]
  refine .bind (.id h1 hi fun s2 h2 => ?_)
  refine .bind (.matchesNo h2 hv2 (.inl hd.inMode) fun s3 _ h3 => ?_)
  exact fun l => ⟨Ut.dtSimple rfl, h3⟩

theorem comp_dtorInit {i : Id} (hi : Ident env true t i) (hv2 : t2.value = .assign)
    (h : ∀ n, Yields S env (recOf n).assign i1 rest e) (n : Nat) :
    Yields S env (declarator (recOf n)) (t :: t2 :: i1) rest (.dtSimple l i (.some e)) := by
  intro s hs
  obtain ⟨nm, hv, -, -⟩ := hi.value
  unfold declarator
  refine .span (.bind (.peek hs (.inl (inMode_of hv rfl)) fun s1 _ h1 => ?_))
  rw [hv]
  refine .bind (.id h1 hi fun s2 h2 => ?_)
  refine .bind (.matchesYes h2 hv2 fun s3 h3 => ?_)
  rw [if_pos rfl]
  exact (h n).bind h3 fun a s4 ha h4 l => ⟨Ut.dtSimple (Ut.some ha), h4⟩

theorem comp_constDtor {p : PattId} {l : Loc} (hp : Derives L env .pattern inp (t :: i1) p)
    (hv : t.value = .assign) (h : ∀ n, Yields S env (recOf n).assign i1 rest e) :
    CConstDtor S env inp rest (.constDtor l p e) := by
  cases hp with
  | pattern hi => exact ⟨_, _, _, _, _, _, hi, rfl, hv, h, rfl⟩

theorem CConstDtor.yields {x : Ast .constDtor} (h : CConstDtor S env inp rest x) (n : Nat) :
    Yields S env (constDeclarator (recOf n)) inp rest x := by
  obtain ⟨t, i, t2, i1, e, l, hi, rfl, hv, h, rfl⟩ := h
  intro s hs
  unfold constDeclarator
  refine (comp_pattern hi).bind hs fun p' s1 hp h1 => ?_
  refine .bind (.expect h1 hv fun s2 h2 => ?_)
  exact (h n).bind h2 fun a s3 ha h3 => ⟨Ut.constDtor hp ha, h3⟩

theorem comp_constDtorsLast {x : Ast .constDtor} (h : CConstDtor S env inp rest x)
    (hn : NextIsNot rest .comma) (hd : NoDivision rest) :
    CConstDtors S env inp rest (.cons x .nil) := by
  refine ⟨x, .nil, rest, rfl, h, ?_⟩
  intro n acc N s hs
  obtain ⟨t, r, rfl, hv⟩ := hn
  refine .loopN fun M _ => ?_
  unfold moreCommaStep
  exact .bind (.matchesNo hs hv (.inl hd.inMode) fun s' _ h' => .nil h')

theorem comp_constDtorsCons {x : Ast .constDtor} {xs : Ast (.list .constDtor)}
    (h : CConstDtor S env inp (t :: i1) x) (hv : t.value = .comma)
    (ht : CConstDtors S env i1 rest xs) : CConstDtors S env inp rest (.cons x xs) := by
  obtain ⟨x1, xs1, i2, rfl, h1, h4⟩ := ht
  refine ⟨x, _, _, rfl, h, ?_⟩
  intro n acc N s hs
  refine .loopN fun M _ => ?_
  unfold moreCommaStep
  refine .bind (.matchesYes hs hv fun s1 h5 => ?_)
  rw [if_pos rfl]
  refine (h1.yields n).bind h5 fun a s2 ha h6 => .pure ?_
  exact (h4 n _ _ _ h6).mono fun zs s' h7 => h7.cons ha

theorem CConstDtors.separated {xs : Ast (.list .constDtor)}
    {Q : List (Ast .constDtor) → PState → Prop}
    (h : CConstDtors S env inp rest xs) (hs : Ahead S env s inp)
    (hq : ∀ zs s', (Ast.ofList zs).untrack = xs.untrack → Ahead S env s' rest → Q zs s') :
    cp (commaSeparated (constDeclarator (recOf n))) s Q := by
  obtain ⟨x, xs1, i2, rfl, h1, h4⟩ := h
  unfold commaSeparated moreComma
  refine (h1.yields n).bind hs fun a s1 ha h5 => .loop fun N => ?_
  refine (h4 n _ _ _ h5).mono fun zs s' h6 => ?_
  obtain ⟨h7, h8⟩ := h6.first ha
  exact hq zs s' h7 h8

theorem comp_varStmt {ds : Ast (.list .dtor)} (hv : t.value = .reserved .var)
    (h : NoDivision i2 → CComma S env (fun n => declarator (recOf n)) i1 i2 ds)
    (ht : Term false i2 rest semi) : CStmt S env (t :: i1) rest (.sVar l ds semi) := by
  refine .simple (f := varStatement) hv (fun _ _ => rfl) rfl rfl (by unfold isLoop; rfl) fun hd n s hs => ?_
  have hd2 : NoDivision i2 := by
    obtain ⟨t, r, rfl, hm⟩ := ht.next hd
    exact .of rfl hm
  unfold varStatement
  refine .posn_bind (.bind (.reread hs fun s1 _ h1 => ?_))
  refine .bind ((h hd2).separated (f := fun n => declarator (recOf n)) h1 fun zs s2 h3 h4 => ?_)
  exact .endWithAutoSemi (nl := .required) h4 ht (fun _ => hd) fun l' semi' s3 h5 => ⟨Ut.sVar h3, h5⟩

theorem comp_emptyStmt (hv : t.value = .semi) : CStmt S env (t :: rest) rest (.sEmpty l) := by
  refine .simple (f := fun _ => emptyStatement) hv (fun _ _ => rfl) rfl rfl (by unfold isLoop; rfl) fun hd n s hs => ?_
  unfold emptyStatement
  exact .span (.bind (.expect hs hv fun s1 h1 l => ⟨rfl, h1⟩))

theorem comp_declFun {l0 : Loc} {x : Ast .id} {ps : Ast .params} {b : Script} {gen : Bool}
    (h : CFunc S env .name inp rest (.func l0 x ps b gen))
    (hf : NextIs inp (.reserved .function)) (n : Nat) :
    Yields S env (stmtListItem (recOf n) true) inp rest (.siDecl (.dFun (.func l x ps b gen))) := by
  intro s hs
  obtain ⟨t, r, rfl, hv⟩ := hf
  rw [stmtListItem_eq]
  refine .bind (.peek hs (.inl (inMode_of hv rfl)) fun s1 _ h1 => ?_)
  rw [hv]
  show cp (functionDeclaration (recOf n) >>= _) s1 _
  unfold functionDeclaration
  refine .bind (.span (.bind ((h n _ rfl s1 h1).mono fun f s2 ⟨hf, h2⟩ => fun l' => ?_)))
  refine ⟨Ut.siDecl ?_, h2⟩
  cases f with
  | func l1 x1 ps1 b1 gen1 =>
    injection hf with _ q1 q2 q3 q4 q5
    subst q5
    exact Ut.dFun (Ut.func q2 q3 q4)

theorem comp_declLet {ds : Ast (.list .dtor)} (hv : t.value = .identifier (.atom .«let»))
    (hf : NextSat (some isIdent) i1)
    (h : NoDivision i2 → CComma S env (fun n => declarator (recOf n)) i1 i2 ds)
    (ht : Term false i2 rest semi) (hd : NoDivision rest) (n : Nat) :
    Yields S env (stmtListItem (recOf n) true) (t :: i1) rest (.siDecl (.dLet l ds semi)) := by
  intro s hs
  have hd2 : NoDivision i2 := by
    obtain ⟨t, r, rfl, hm⟩ := ht.next hd
    exact .of rfl hm
  obtain ⟨t2, r2, rfl, hv2⟩ := hf
  have ⟨nm, hvt⟩ : ∃ nm, t2.value = .identifier nm := by
    cases hv' : t2.value <;> rw [hv'] at hv2 <;> first | exact ⟨_, rfl⟩ | cases hv2
  rw [stmtListItem_eq]
  refine .bind (.peek hs (.inl (inMode_of hv rfl)) fun s1 _ h1 => ?_)
  have hd2 : dispatch (recOf n) true t.value = identifierItem (recOf n) true := by rw [hv]; rfl
  rw [hd2]
  unfold identifierItem
  refine .bind (.rereadToken h1 fun s2 hstr h5 => ?_)
  refine .bind (.peekOp h5 (.inl (inMode_of hvt rfl)) fun s3 _ h6 => ?_)
  rw [hvt, (eqv_true rfl).2 hv]
  show cp (letDeclaration (recOf n) _ >>= _) s3 _
  unfold letDeclaration
  refine .bind (.bind ((h ‹_›).separated (f := fun n => declarator (recOf n)) h6 fun zs s4 h7 h8 => ?_))
  exact .endWithAutoSemi (nl := .required) h8 ht (fun _ => hd) fun l' semi' s3 h9 =>
    ⟨Ut.siDecl (Ut.dLet h7), h9⟩

theorem comp_declConst {ds : Ast (.list .constDtor)} (hv : t.value = .reserved .const)
    (h : CConstDtors S env i1 i2 ds)
    (ht : Term false i2 rest semi) (hd : NoDivision rest) (n : Nat) :
    Yields S env (stmtListItem (recOf n) true) (t :: i1) rest (.siDecl (.dConst l ds semi)) := by
  intro s hs
  rw [stmtListItem_eq]
  refine .bind (.peek hs (.inl (inMode_of hv rfl)) fun s1 _ h1 => ?_)
  rw [hv]
  show cp (constDeclaration (recOf n) >>= _) s1 _
  unfold constDeclaration
  refine .bind (.posn_bind (.bind (.reread h1 fun s2 _ h2 => ?_)))
  refine .bind (h.separated h2 fun zs s4 h7 h8 => ?_)
  exact .endWithAutoSemi (nl := .required) h8 ht (fun _ => hd) fun l' semi' s3 h9 =>
    ⟨Ut.siDecl (Ut.dConst h7), h9⟩

/-! ### Branches and loops -/

theorem comp_ifStmt (hv : t.value = .reserved .if) (hv2 : t2.value = .lParen)
    (h : ∀ n, Yields S (env.withIn true) (expression (recOf n)) i1 (t3 :: i2) e)
    (hv3 : t3.value = .rParen) (hx : CStmt S env i2 rest x)
    (hn : NextIsNot rest (.reserved .else)) :
    CStmt S env (t :: t2 :: i1) rest (.sIf l e x .none) := by
  refine .simple (f := ifStatement) hv (fun _ _ => rfl) rfl rfl (by unfold isLoop; rfl) fun hd n s hs => ?_
  unfold ifStatement
  refine .span (.bind (.expect hs hv fun s1 h1 => ?_))
  refine (Yields.paren h hv2 hv3 n).bind h1 fun e' s2 he h2 => ?_
  refine (hx.statement hd n).bind h2 fun x' s3 hx' h3 => ?_
  obtain ⟨t4, r4, rfl, hv4⟩ := hn
  refine .bind (.peek h3 (.inl hd.inMode) fun s4 _ h4 => ?_)
  rw [eqv_false rfl hv4]
  exact fun l => ⟨Ut.sIf he hx' rfl, h4⟩

theorem comp_ifElseStmt (hv : t.value = .reserved .if) (hv2 : t2.value = .lParen)
    (h : ∀ n, Yields S (env.withIn true) (expression (recOf n)) i1 (t3 :: i2) e)
    (hv3 : t3.value = .rParen) (hx : CStmt S env i2 (t4 :: i3) x)
    (hv4 : t4.value = .reserved .else) (hx2 : CStmt S env i3 rest x2) :
    CStmt S env (t :: t2 :: i1) rest (.sIf l e x (.some x2)) := by
  refine .simple (f := ifStatement) hv (fun _ _ => rfl) rfl rfl (by unfold isLoop; rfl) fun hd n s hs => ?_
  unfold ifStatement
  refine .span (.bind (.expect hs hv fun s1 h1 => ?_))
  refine (Yields.paren h hv2 hv3 n).bind h1 fun e' s2 he h2 => ?_
  refine (hx.statement (.of hv4 rfl) n).bind h2 fun x' s3 hx h3 => ?_
  refine .bind (.peek h3 (.inl (inMode_of hv4 rfl)) fun s4 _ h4 => ?_)
  rw [(eqv_true rfl).2 hv4, if_pos rfl]
  refine .bind (.reread h4 fun s5 _ h5 => ?_)
  exact (hx2.statement hd n).bind h5 fun x2' s6 hx2 h6 l => ⟨Ut.sIf he hx (Ut.some hx2), h6⟩

theorem Yields.iterationBody (h : ∀ n, Yields S env.loopBody (P.statement (recOf n)) inp rest x)
    (n : Nat) : Yields S env (P.iterationBody (recOf n)) inp rest x := by
  intro s hs
  unfold P.iterationBody
  refine .get_bind (.modify_bind ?_)
  obtain ⟨a1, a2, a3, a4, a5, a6, a7⟩ := hs.fits
  refine (h n).bind (hs.change rfl ⟨a1, a2, a3, rfl, a5, a6, a7⟩) fun x' s1 hx h1 => .modify_bind ?_
  obtain ⟨b1, b2, b3, b4, b5, b6, b7⟩ := h1.fits
  exact ⟨hx, h1.change rfl ⟨b1, b2, b3, a4, b5, b6, b7⟩⟩

theorem comp_doStmt (hv : t.value = .reserved .do) (hx : CStmt S env.loopBody i1 (t2 :: t3 :: i2) x)
    (hv2 : t2.value = .reserved .while) (hv3 : t3.value = .lParen)
    (h : ∀ n, Yields S (env.withIn true) (expression (recOf n)) i2 (t4 :: i3) e)
    (hv4 : t4.value = .rParen) (ht : Term true i3 rest semi) :
    CStmt S env (t :: i1) rest (.sDoWhile l x e semi) := by
  refine .simple (f := doStatement) hv (fun _ _ => rfl) rfl rfl (by unfold isLoop; rfl) fun hd n s hs => ?_
  unfold doStatement
  refine .posn_bind (.bind (.reread hs fun s1 _ h1 => ?_))
  refine (Yields.iterationBody (fun n => hx.statement (.of hv2 rfl) n) n).bind h1
    fun x' s2 hx h2 => ?_
  refine .bind (.expect h2 hv2 fun s3 h3 => ?_)
  refine (Yields.paren h hv3 hv4 n).bind h3 fun e' s4 he h4 => ?_
  exact .endWithAutoSemi (nl := .optional) h4 ht (fun _ => hd) fun l' semi' s3 h9 =>
    ⟨Ut.sDoWhile hx he, h9⟩

theorem comp_whileStmt (hv : t.value = .reserved .while) (hv2 : t2.value = .lParen)
    (h : ∀ n, Yields S (env.withIn true) (expression (recOf n)) i1 (t3 :: i2) e)
    (hv3 : t3.value = .rParen) (hx : CStmt S env.loopBody i2 rest x) :
    CStmt S env (t :: t2 :: i1) rest (.sWhile l e x) := by
  refine .simple (f := whileStatement) hv (fun _ _ => rfl) rfl rfl (by unfold isLoop; rfl) fun hd n s hs => ?_
  unfold whileStatement
  refine .span (.bind (.reread hs fun s1 _ h1 => ?_))
  refine (Yields.paren h hv2 hv3 n).bind h1 fun e' s2 he h2 => ?_
  exact (Yields.iterationBody (fun n => hx.statement hd n) n).bind h2
    fun x' s2 hx h2 l => ⟨Ut.sWhile he hx, h2⟩

theorem comp_withStmt (hv : t.value = .reserved .with) (hst : env.strict = false)
    (hv2 : t2.value = .lParen)
    (h : ∀ n, Yields S (env.withIn true) (expression (recOf n)) i1 (t3 :: i2) e)
    (hv3 : t3.value = .rParen) (hx : CStmt S env i2 rest x) :
    CStmt S env (t :: t2 :: i1) rest (.sWith l e x) := by
  refine .simple (f := withStatement) hv (fun _ _ => rfl) rfl rfl (by unfold isLoop; rfl) fun hd n s hs => ?_
  unfold withStatement
  refine .span (.bind (.reread hs fun s1 _ h1 => ?_))
  refine .bind (.strictCheckPure h1 (fun hh => by rw [hst] at hh; cases hh) (fun _ _ => nofun)
    fun s2 _ h2 => ?_)
  refine (Yields.paren h hv2 hv3 n).bind h2 fun e' s2 he h2 => ?_
  exact (hx.statement hd n).bind h2 fun x' s2 hx h2 l => ⟨Ut.sWith he hx, h2⟩

/-! ### Jumps -/

theorem cp.hasArgYes {Q : Bool → PState → Prop} (hs : Ahead S env s inp) (h : ArgSameLine inp)
    (hm : ∃ t r, inp = t :: r ∧ t.value.inMode false = true)
    (hq : ∀ s', s'.la ≠ [] → Ahead S env s' inp → Q true s') : cp hasArgSameLine s Q := by
  obtain ⟨t, r, rfl, h1, h2, h3⟩ := h
  obtain ⟨t', r', hh, hm⟩ := hm
  obtain ⟨rfl, rfl⟩ := List.cons.inj hh
  unfold hasArgSameLine
  refine .bind (.peek hs (.inl hm) fun s1 hl h4 => ?_)
  rw [h1, eqv_false rfl h2, eqv_false rfl h3]
  exact hq s1 hl h4

theorem cp.hasArgNo {Q : Bool → PState → Prop} (hs : Ahead S env s inp) (h : NoArgSameLine inp)
    (hm : ∃ t r, inp = t :: r ∧ t.value.inMode false = true)
    (hq : ∀ s', s'.la ≠ [] → Ahead S env s' inp → Q false s') : cp hasArgSameLine s Q := by
  obtain ⟨t, r, rfl, h1⟩ := h
  obtain ⟨t', r', hh, hm⟩ := hm
  obtain ⟨rfl, rfl⟩ := List.cons.inj hh
  unfold hasArgSameLine
  refine .bind (.peek hs (.inl hm) fun s1 hl h4 => ?_)
  have : (!t.newline && !t.value.eqv .semi && !t.value.eqv .rBrace) = false := by
    rcases h1 with h | h | h
    · simp [h]
    · simp [(eqv_true (w := .semi) rfl).2 h]
    · simp [(eqv_true (w := .rBrace) rfl).2 h]
  rw [this]
  exact hq s1 hl h4

theorem comp_breakNone (hv : t.value = .reserved .break) (hn : NoArgSameLine i1)
    (hb : env.iteration = true ∨ env.switch = true) (ht : Term false i1 rest semi) :
    CStmt S env (t :: i1) rest (.sBreak l none semi) := by
  refine .simple (f := fun _ => breakStatement) hv (fun _ _ => rfl) rfl rfl (by unfold isLoop; rfl) fun hd n s hs => ?_
  unfold breakStatement breakArg
  refine .posn_bind (.bind (.reread hs fun s1 _ h1 => ?_))
  refine .bind (.bind (.hasArgNo h1 hn (ht.next hd) fun s2 _ h2 => ?_))
  rw [if_neg (by decide)]
  refine .get_bind ?_
  rw [h2.fits.iteration, h2.fits.switch, if_neg (by rcases hb with h | h <;> simp [h])]
  exact .endWithAutoSemi (nl := .required) h2 ht (fun _ => hd) fun l' semi' s3 h9 => ⟨rfl, h9⟩

theorem comp_breakLabel {i : Id} (hv : t.value = .reserved .break) (hn : ArgSameLine (t2 :: i1))
    (hi : Ident env false t2 i) (hb : ∃ loop, (i.name, loop) ∈ env.labels)
    (ht : Term false i1 rest semi) :
    CStmt S env (t :: t2 :: i1) rest (.sBreak l (some i) semi) := by
  refine .simple (f := fun _ => breakStatement) hv (fun _ _ => rfl) rfl rfl (by unfold isLoop; rfl) fun hd n s hs => ?_
  obtain ⟨nm, hvt, -, -⟩ := hi.value
  unfold breakStatement breakArg
  refine .posn_bind (.bind (.reread hs fun s1 _ h1 => ?_))
  refine .bind (.bind (.hasArgYes h1 hn ⟨_, _, rfl, inMode_of hvt rfl⟩ fun s2 _ h2 => ?_))
  rw [if_pos rfl]
  refine .bind (.id h2 hi fun s3 h3 => .get_bind ?_)
  obtain ⟨b, hb⟩ := hb
  rw [h3.fits.labels _ b hb]
  exact .endWithAutoSemi (nl := .required) h3 ht (fun _ => hd) fun l' semi' s3 h9 => ⟨rfl, h9⟩

theorem comp_continueNone (hv : t.value = .reserved .continue) (hn : NoArgSameLine i1)
    (hb : env.iteration = true) (ht : Term false i1 rest semi) :
    CStmt S env (t :: i1) rest (.sCont l none semi) := by
  refine .simple (f := fun _ => continueStatement) hv (fun _ _ => rfl) rfl rfl (by unfold isLoop; rfl) fun hd n s hs => ?_
  unfold continueStatement continueArg
  refine .posn_bind (.bind (.reread hs fun s1 _ h1 => ?_))
  refine .bind (.bind (.hasArgNo h1 hn (ht.next hd) fun s2 _ h2 => ?_))
  rw [if_neg (by decide)]
  refine .get_bind ?_
  rw [h2.fits.iteration, if_neg (by simp [hb])]
  exact .endWithAutoSemi (nl := .required) h2 ht (fun _ => hd) fun l' semi' s3 h9 => ⟨rfl, h9⟩

theorem comp_continueLabel {i : Id} (hv : t.value = .reserved .continue)
    (hn : ArgSameLine (t2 :: i1))
    (hi : Ident env false t2 i) (hb : (i.name, true) ∈ env.labels)
    (ht : Term false i1 rest semi) :
    CStmt S env (t :: t2 :: i1) rest (.sCont l (some i) semi) := by
  refine .simple (f := fun _ => continueStatement) hv (fun _ _ => rfl) rfl rfl (by unfold isLoop; rfl) fun hd n s hs => ?_
  obtain ⟨nm, hvt, -, -⟩ := hi.value
  unfold continueStatement continueArg
  refine .posn_bind (.bind (.reread hs fun s1 _ h1 => ?_))
  refine .bind (.bind (.hasArgYes h1 hn ⟨_, _, rfl, inMode_of hvt rfl⟩ fun s2 _ h2 => ?_))
  rw [if_pos rfl]
  refine .bind (.id h2 hi fun s3 h3 => .get_bind ?_)
  rw [h3.fits.labels _ true hb]
  exact .endWithAutoSemi (nl := .required) h3 ht (fun _ => hd) fun l' semi' s3 h9 => ⟨rfl, h9⟩

theorem comp_returnNone (hv : t.value = .reserved .return) (hn : NoArgSameLine i1)
    (hb : env.function = true) (ht : Term false i1 rest semi) :
    CStmt S env (t :: i1) rest (.sReturn l .none semi) := by
  refine .simple (f := returnStatement) hv (fun _ _ => rfl) rfl rfl (by unfold isLoop; rfl) fun hd n s hs => ?_
  unfold returnStatement returnArg
  refine .posn_bind (.bind (.reread hs fun s1 _ h1 => ?_))
  refine .bind (.bind (.hasArgNo h1 hn (ht.next hd) fun s2 _ h2 => ?_))
  rw [if_neg (by decide)]
  refine .bind (.endWithAutoSemi (nl := .required) h2 ht (fun _ => hd) fun l' semi' s3 h9 => ?_)
  refine .get_bind ?_
  rw [h9.fits.function, if_neg (by simp [hb])]
  exact ⟨rfl, h9⟩

theorem comp_returnExpr (hv : t.value = .reserved .return) (hn : ArgSameLine i1)
    (hb : env.function = true)
    (h : ∀ n, Yields S (env.withIn true) (expression (recOf n)) i1 i2 e)
    (hf : NextSat (some exprStart) i1) (ht : Term false i2 rest semi) :
    CStmt S env (t :: i1) rest (.sReturn l (.some e) semi) := by
  refine .simple (f := returnStatement) hv (fun _ _ => rfl) rfl rfl (by unfold isLoop; rfl) fun hd n s hs => ?_
  obtain ⟨t', r', rfl, hst⟩ := hf
  unfold returnStatement returnArg
  refine .posn_bind (.bind (.reread hs fun s1 _ h1 => ?_))
  refine .bind (.bind (.hasArgYes h1 hn ⟨_, _, rfl, inMode_of_start hst⟩ fun s2 _ h2 => ?_))
  rw [if_pos rfl]
  refine (h n).allowIn.bind h2 fun e' s3 he h3 => ?_
  refine .bind (.endWithAutoSemi (nl := .required) h3 ht (fun _ => hd) fun l' semi' s3 h9 => ?_)
  refine .get_bind ?_
  rw [h9.fits.function, if_neg (by simp [hb])]
  exact ⟨Ut.sReturn (Ut.some he), h9⟩

theorem comp_throwStmt (hv : t.value = .reserved .throw) (hn : ArgSameLine i1)
    (h : ∀ n, Yields S (env.withIn true) (expression (recOf n)) i1 i2 e)
    (hf : NextSat (some exprStart) i1) (ht : Term false i2 rest semi) :
    CStmt S env (t :: i1) rest (.sThrow l e semi) := by
  refine .simple (f := throwStatement) hv (fun _ _ => rfl) rfl rfl (by unfold isLoop; rfl) fun hd n s hs => ?_
  obtain ⟨t', r', rfl, hst⟩ := hf
  unfold throwStatement
  refine .posn_bind (.bind (.reread hs fun s1 _ h1 => ?_))
  refine .bind (.hasArgYes h1 hn ⟨_, _, rfl, inMode_of_start hst⟩ fun s2 _ h2 => ?_)
  rw [if_neg (by decide)]
  refine (h n).allowIn.bind h2 fun e' s3 he h3 => ?_
  exact .endWithAutoSemi (nl := .required) h3 ht (fun _ => hd) fun l' semi' s3 h9 => ⟨Ut.sThrow he, h9⟩

theorem comp_debuggerStmt (hv : t.value = .reserved .debugger) (ht : Term false i1 rest semi) :
    CStmt S env (t :: i1) rest (.sDebugger l semi) := by
  refine .simple (f := fun _ => debuggerStatement) hv (fun _ _ => rfl) rfl rfl (by unfold isLoop; rfl) fun hd n s hs => ?_
  unfold debuggerStatement
  refine .posn_bind (.bind (.reread hs fun s1 _ h1 => ?_))
  exact .endWithAutoSemi (nl := .required) h1 ht (fun _ => hd) fun l' semi' s3 h9 => ⟨rfl, h9⟩

/-! ### `switch` -/

theorem comp_case {xs : Ast (.list .sitem)} (hv : t.value = .reserved .case)
    (h : ∀ n, Yields S (env.withIn true) (expression (recOf n)) i1 (t2 :: i2) e)
    (hv2 : t2.value = .colon) (hx : CItems S env .items i2 rest xs) :
    CCase S env (t :: i1) rest (.caseClause l (.some e) xs) := by
  intro n s hs
  show cp (caseClause (recOf n)) s _
  unfold caseClause statementList
  refine .span (.bind (.reread hs fun s1 _ h1 => ?_))
  refine (h n).allowIn.bind h1 fun e' s2 he h2 => ?_
  refine .bind (.expect h2 hv2 fun s3 h3 => ?_)
  refine .bind (.loop fun N => (hx n [] N s3 h3).mono fun zs s4 h4 => ?_)
  obtain ⟨h5, h6⟩ := h4.start
  exact fun l => ⟨Ut.caseClause (Ut.some he) h5, h6⟩

theorem comp_default {xs : Ast (.list .sitem)} (hv : t.value = .reserved .default)
    (hv2 : t2.value = .colon) (hx : CItems S env .items i1 rest xs) :
    CCase S env (t :: t2 :: i1) rest (.caseClause l .none xs) := by
  intro n s hs
  show cp (defaultClause (recOf n)) s _
  unfold defaultClause statementList
  refine .span (.bind (.reread hs fun s1 _ h1 => ?_))
  refine .bind (.expect h1 hv2 fun s3 h3 => ?_)
  refine .bind (.loop fun N => (hx n [] N s3 h3).mono fun zs s4 h4 => ?_)
  obtain ⟨h5, h6⟩ := h4.start
  exact fun l => ⟨Ut.caseClause rfl h5, h6⟩

theorem comp_casesNil : CCases S env inp inp .nil := by
  intro hr n acc found N s _ hs
  obtain ⟨t, r, rfl, hv⟩ := hr
  refine .loopN fun M _ => ?_
  unfold switchStep
  refine .bind (.peek hs (.inl (inMode_of hv rfl)) fun s1 _ h1 => ?_)
  rw [hv]
  exact .nil h1

theorem comp_casesCons {y : Ast .case} {ys : Ast (.list .case)} (h : CCase S env inp i1 y)
    (hf : if isDefault y then NextIs inp (.reserved .default) else NextIs inp (.reserved .case))
    (ht : CCases S env i1 rest ys) : CCases S env inp rest (.cons y ys) := by
  intro hr n acc found N s hc hs
  refine .loopN fun M _ => ?_
  unfold switchStep
  have hc' : ((y :: ys.toList).filter isDefault).length + (if found then 1 else 0) ≤ 1 := hc
  have hy := h n
  cases hdf : isDefault y with
  | false =>
    rw [hdf] at hf hy
    obtain ⟨t, r, rfl, hv⟩ := hf
    refine .bind (.peek hs (.inl (inMode_of hv rfl)) fun s1 _ h1 => ?_)
    rw [hv]
    refine Yields.bind (m := caseClause (recOf n)) hy h1 fun a s2 ha h2 => ?_
    rw [List.filter_cons, hdf, if_neg (by decide)] at hc'
    exact (ht hr n _ found M s2 hc' h2).mono fun zs s' h3 => h3.cons ha
  | true =>
    rw [hdf] at hf hy
    obtain ⟨t, r, rfl, hv⟩ := hf
    refine .bind (.peek hs (.inl (inMode_of hv rfl)) fun s1 _ h1 => ?_)
    rw [hv]
    rw [List.filter_cons, hdf, if_pos rfl, List.length_cons] at hc'
    have hfd : found = false := by
      cases found with
      | false => rfl
      | true => simp at hc'
    subst hfd
    refine Yields.bind (m := defaultClause (recOf n)) hy h1 fun a s2 ha h2 => ?_
    refine (ht hr n _ true M s2 ?_ h2).mono fun zs s' h3 => h3.cons ha
    simp at hc' ⊢
    exact hc'

theorem comp_switchStmt {cs : Ast (.list .case)} (hv : t.value = .reserved .switch)
    (hv2 : t2.value = .lParen)
    (h : ∀ n, Yields S (env.withIn true) (expression (recOf n)) i1 (t3 :: t4 :: i2) e)
    (hv3 : t3.value = .rParen) (hv4 : t4.value = .lBrace)
    (hc : CCases S env.switchBody i2 (t5 :: rest) cs) (hv5 : t5.value = .rBrace)
    (hl : (cs.toList.filter isDefault).length ≤ 1) :
    CStmt S env (t :: t2 :: i1) rest (.sSwitch l e cs) := by
  refine .simple (f := switchStatement) hv (fun _ _ => rfl) rfl rfl (by unfold isLoop; rfl) fun hd n s hs => ?_
  unfold switchStatement switchCases
  refine .span (.bind (.reread hs fun s1 _ h1 => ?_))
  refine (Yields.paren h hv2 hv3 n).bind h1 fun e' s2 he h2 => ?_
  refine .get_bind (.modify_bind ?_)
  obtain ⟨a1, a2, a3, a4, a5, a6, a7⟩ := h2.fits
  refine .bind (.bind (.expect (S := S) (env := env.switchBody)
    (h2.change rfl ⟨a1, a2, a3, a4, rfl, a6, a7⟩) hv4 fun s3 h3 => ?_))
  refine .bind (.loop fun N => (hc ⟨_, _, rfl, hv5⟩ n [] false N s3 (by simpa using hl) h3).mono
    fun zs s4 h4 => ?_)
  obtain ⟨h5, h6⟩ := h4.start
  refine .bind (.expect h6 hv5 fun s5 h7 => .pure (.modify_bind ?_))
  obtain ⟨b1, b2, b3, b4, b5, b6, b7⟩ := h7.fits
  exact fun l => ⟨Ut.sSwitch he h5, h7.change rfl ⟨b1, b2, b3, b4, a5, b6, b7⟩⟩

/-! ### `try` -/

theorem comp_catchNone (hn : NextIs inp (.reserved .finally)) (n : Nat) :
    Yields S env (catchOpt (recOf n)) inp inp .none := by
  intro s hs
  obtain ⟨t, r, rfl, hv⟩ := hn
  unfold catchOpt
  refine .bind (.peek hs (.inl (inMode_of hv rfl)) fun s1 _ h1 => ?_)
  rw [hv]
  exact ⟨rfl, h1⟩

theorem comp_catchSome {p : PattId} {b : Ast .block} (hv : t.value = .reserved .catch)
    (hv2 : t2.value = .lParen) (hp : Yields S env pattern i1 (t3 :: i2) p)
    (hv3 : t3.value = .rParen) (hb : ∀ n, Yields S env (block (recOf n)) i2 rest b) (n : Nat) :
    Yields S env (catchOpt (recOf n)) (t :: t2 :: i1) rest (.some (.catchClause l p b)) := by
  intro s hs
  unfold catchOpt
  refine .bind (.peek hs (.inl (inMode_of hv rfl)) fun s1 _ h1 => ?_)
  rw [hv]
  refine .bind (.span (.bind (.reread h1 fun s2 _ h2 => ?_)))
  refine .bind (.expect h2 hv2 fun s3 h3 => ?_)
  refine hp.bind h3 fun p' s4 hp h4 => ?_
  refine .bind (.expect h4 hv3 fun s5 h5 => ?_)
  exact (hb n).bind h5 fun b' s6 hb h6 l => ⟨Ut.some (Ut.catchClause hp hb), h6⟩

theorem comp_finallyNone (hn : NextIsNot inp (.reserved .finally)) (hd : NoDivision inp) (n : Nat) :
    Yields S env (finallyOpt (recOf n)) inp inp .none := by
  intro s hs
  obtain ⟨t, r, rfl, hv⟩ := hn
  unfold finallyOpt
  refine .bind (.peek hs (.inl hd.inMode) fun s1 _ h1 => ?_)
  split
  · rename_i hh; exact (hv hh).elim
  · exact ⟨rfl, h1⟩

theorem comp_finallySome {b : Ast .block} (hv : t.value = .reserved .finally)
    (hb : ∀ n, Yields S env (block (recOf n)) i1 rest b) (n : Nat) :
    Yields S env (finallyOpt (recOf n)) (t :: i1) rest (.some b) := by
  intro s hs
  unfold finallyOpt
  refine .bind (.peek hs (.inl (inMode_of hv rfl)) fun s1 _ h1 => ?_)
  rw [hv]
  refine .bind (.reread h1 fun s2 _ h2 => ?_)
  exact (hb n).bind h2 fun b' s6 hb h6 => ⟨Ut.some hb, h6⟩

theorem comp_tryStmt {b : Ast .block} {y : Ast (.opt .«catch»)} {f : Ast (.opt .block)}
    (hv : t.value = .reserved .try) (hb : ∀ n, Yields S env (block (recOf n)) i1 i2 b)
    (hc : ∀ n, Yields S env (catchOpt (recOf n)) i2 i3 y)
    (hf : NoDivision rest → ∀ n, Yields S env (finallyOpt (recOf n)) i3 rest f)
    (hn : NextIs i2 (.reserved .catch) ∨ NextIs i2 (.reserved .finally)) :
    CStmt S env (t :: i1) rest (.sTry l b y f) := by
  refine .simple (f := tryStatement) hv (fun _ _ => rfl) rfl rfl (by unfold isLoop; rfl) fun hd n s hs => ?_
  unfold tryStatement
  refine .span (.bind (.reread hs fun s1 _ h1 => ?_))
  refine (hb n).bind h1 fun b' s2 hb h2 => ?_
  have htail : ∀ s3, Ahead S env s3 i2 → cp (tryTail (recOf n) b') s3 (fun a s' => ∀ l',
      (Tracking.setLoc l' a).untrack = (Ast.sTry l b y f).untrack ∧ Ahead S env s' rest) := by
    intro s3 h3
    unfold tryTail
    refine (hc n).bind h3 fun y' s4 hy h4 => ?_
    exact (hf hd n).bind h4 fun f' s5 hf h5 l => ⟨Ut.sTry hb hy hf, h5⟩
  rcases hn with ⟨t2, r2, rfl, hv2⟩ | ⟨t2, r2, rfl, hv2⟩
  · refine .bind (.peek h2 (.inl (inMode_of hv2 rfl)) fun s3 _ h3 => ?_)
    rw [hv2]
    exact htail s3 h3
  · refine .bind (.peek h2 (.inl (inMode_of hv2 rfl)) fun s3 _ h3 => ?_)
    rw [hv2]
    exact htail s3 h3

end P

end Esprit
