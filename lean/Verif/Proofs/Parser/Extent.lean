import Verif.Spec.Extent
import Verif.Proofs.Parser.Locations

/-! The extent of expressions. -/

set_option linter.unusedSectionVars false
set_option linter.unusedVariables false

namespace Esprit

open Lex ReaderSpec Grammar

section Edges

variable [Env] {S : Str} {c : Cat} {env : Scope} {nt : NT c} {i i0 i1 i2 inp rest : List Token}
  {x : Ast c} {t t2 : Token} {l a b : Loc}

/-- `StartsWith` for the tokens up to `rest`. -/
def SW (inp rest : List Token) (l : Loc) : Prop := ∃ c, inp = c ++ rest ∧ StartsWith c l

/-- `EndsWith` for the tokens up to `rest`. -/
def EW (inp rest : List Token) (l : Loc) : Prop := ∃ c, inp = c ++ rest ∧ EndsWith c l

theorem SW.tok {v : TokenData} (hv : t.value = v) (h : v ≠ .lParen) (hs : rest <:+ i)
    {e : Posn} : SW (t :: i) rest (some ⟨t.location.start, e⟩) := by
  obtain ⟨m, rfl⟩ := hs
  exact ⟨t :: m, rfl, [], t, m, _, rfl, by simp, by rw [hv]; exact h, rfl, rfl⟩

theorem SW.shrink (h : SW inp i1 l) (hs : rest <:+ i1) : SW inp rest l := by
  obtain ⟨c, rfl, ls, t, m, sp, rfl, h1, h2, h3, h4⟩ := h
  obtain ⟨m', rfl⟩ := hs
  exact ⟨ls ++ t :: (m ++ m'), by simp, ls, t, m ++ m', sp, rfl, h1, h2, h3, h4⟩

theorem SW.span (h : SW inp i1 a) (hs : rest <:+ i1) (hb : b ≠ none) : SW inp rest (spanLoc a b) := by
  have := h.shrink hs
  obtain ⟨c, rfl, ls, t, m, sp, rfl, h1, h2, rfl, h4⟩ := this
  cases b with
  | none => exact absurd rfl hb
  | some b => exact ⟨_, rfl, ls, t, m, _, rfl, h1, h2, rfl, h4⟩

theorem SW.paren (ht : t.value = .lParen) (h : SW i i1 l) (hs : rest <:+ i1) :
    SW (t :: i) rest l := by
  have := h.shrink hs
  obtain ⟨c, rfl, ls, u, m, sp, rfl, h1, h2, h3, h4⟩ := this
  refine ⟨t :: (ls ++ u :: m), rfl, t :: ls, u, m, sp, rfl, ?_, h2, h3, h4⟩
  intro v hv
  rcases List.mem_cons.1 hv with rfl | hv
  · exact ht
  · exact h1 v hv

theorem EW.tok (hs : (t :: rest) <:+ inp) {p : Posn} : EW inp rest (some ⟨p, t.location.end⟩) := by
  obtain ⟨m, rfl⟩ := hs
  exact ⟨m ++ [t], by simp, m, t, [], _, rfl, by simp, rfl, rfl⟩

theorem EW.widen (h : EW i rest l) (hs : i <:+ inp) : EW inp rest l := by
  obtain ⟨c, rfl, m, t, rs, sp, rfl, h1, h2, h3⟩ := h
  obtain ⟨m', rfl⟩ := hs
  exact ⟨m' ++ (m ++ t :: rs), by simp, m' ++ m, t, rs, sp, by simp, h1, h2, h3⟩

theorem EW.span (h : EW i rest b) (hs : i <:+ inp) (ha : a ≠ none) : EW inp rest (spanLoc a b) := by
  have := h.widen hs
  obtain ⟨c, rfl, m, t, rs, sp, rfl, h1, rfl, h3⟩ := this
  cases a with
  | none => exact absurd rfl ha
  | some a => exact ⟨_, rfl, m, t, rs, _, rfl, h1, rfl, h3⟩

theorem EW.paren (ht : t.value = .rParen) (h : EW i (t :: rest) l) (hs : i <:+ inp) :
    EW inp rest l := by
  have := h.widen hs
  obtain ⟨c, rfl, m, u, rs, sp, rfl, h1, h2, h3⟩ := this
  refine ⟨m ++ u :: (rs ++ [t]), by simp, m, u, rs ++ [t], sp, rfl, ?_, h2, h3⟩
  intro v hv
  rcases List.mem_append.1 hv with hv | hv
  · exact h1 v hv
  · rw [List.mem_singleton.1 hv]; exact ht

theorem Grammar.Derives.loc_ne {nt : NT .expr} {x : Expr} (h : Derives (Located S) env nt inp rest x)
    (ho : Ordered S inp) : x.loc ≠ none := by
  have : Rg S inp rest x.loc := by
    have := h.root ho
    cases nt <;> exact this
  obtain ⟨p, q, m, t, e, -⟩ := this
  rw [e]
  intro h
  cases h

/-- What is claimed about the start. -/
def StartClaim : {c : Cat} → List Token → List Token → Ast c → Prop
  | .expr, inp, rest, x => x.sharpStart = true → SW inp rest x.loc
  | .list .expr, inp, rest, x => ∀ a, x.toList.head? = some a → a.sharpStart = true → SW inp rest a.loc
  | _, _, _, _ => True

/-- What is claimed about the end. -/
def EndClaim : {c : Cat} → List Token → List Token → Ast c → Prop
  | .expr, inp, rest, x => x.sharpEnd = true → EW inp rest x.loc
  | .list .expr, inp, rest, x => ∀ z, x.toList.getLast? = some z → z.sharpEnd = true → EW inp rest z.loc
  | _, _, _, _ => True

theorem sharp_target (x : AssignTarget) : (Patt.sourceTarget x).sharpStart = x.sharpStart := by
  cases x <;> rfl

theorem sharp_patt (p : PattTarget) : (Patt.sourceExpr p).sharpStart = p.sharpStart := by
  match p with
  | .pSimple t => exact sharp_target t
  | .pCompound (.cArr ..) => rfl
  | .pCompound (.cObj ..) => rfl

theorem spanLoc_none : spanLoc a none = none := by cases a <;> rfl

theorem sharpEnd_last : (es : Ast (.list .expr)) → (z : Expr) → es.toList.getLast? = some z →
    es.sharpEnd = z.sharpEnd
  | .nil, z, h => by cases h
  | .cons a .nil, z, h => by cases h; rfl
  | .cons a (.cons b es), z, h =>
    sharpEnd_last (.cons b es) z ((List.getLast?_cons_cons ..).symm.trans h)

theorem unop_ne {op : Op UnopTag} (h : IsUnop t op) : t.value ≠ .lParen := by
  obtain ⟨-, x, hx, hs⟩ := h
  intro hv
  rw [hv] at hs
  unfold IsSymbol at hs
  have : ∀ p ∈ Lex.punctuators ++ Lex.reservedWords.map fun p => (p.1, TokenData.reserved p.2),
      p.2 = .lParen → UnopTag.fromStr p.1 = none := by decide +kernel
  have := this _ hs rfl
  rw [this] at hx
  cases hx

set_option maxHeartbeats 1000000 in
theorem Grammar.Derives.startsWith (h : Derives (Located S) env nt inp rest x) (ho : Ordered S inp) :
    StartClaim inp rest x := by
  induction h
  case identifier h =>
    intro _; cases h with | mk hv _ => exact .tok hv (by intro h; cases h) (List.suffix_refl _)
  case kNull hv => intro _; exact .tok hv (by intro h; cases h) (List.suffix_refl _)
  case kThis hv => intro _; exact .tok hv (by intro h; cases h) (List.suffix_refl _)
  case kTrue hv => intro _; exact .tok hv (by intro h; cases h) (List.suffix_refl _)
  case kFalse hv => intro _; exact .tok hv (by intro h; cases h) (List.suffix_refl _)
  case number hv => intro _; exact .tok hv (by intro h; cases h) (List.suffix_refl _)
  case string hv => intro _; exact .tok hv (by intro h; cases h) (List.suffix_refl _)
  case regExp hv => intro _; exact .tok hv (by intro h; cases h) (List.suffix_refl _)
  case array hv hd _ ih => intro _; exact .tok hv (by intro h; cases h) (by sfx')
  case object hv hd _ ih => intro _; exact .tok hv (by intro h; cases h) (by sfx')
  case newTarget hv _ _ => intro _; exact .tok hv (by intro h; cases h) (by sfx')
  case newArgs hv _ _ _ _ _ _ => intro _; exact .tok hv (by intro h; cases h) (by sfx')
  case newNoArgs hv hd _ _ =>
    intro _
    refine .span (i1 := _) (.tok (i := _) hv (by intro h; cases h) (List.suffix_refl _)) (by sfx') ?_
    exact hd.loc_ne (by ord)
  case function => intro h; cases h
  case postInc => intro h; cases h
  case postDec => intro h; cases h
  case cond => intro h; cases h
  case paren hv hd _ ih => intro h; exact .paren hv (ih (by ord) h) (by sfx')
  case dot hd _ hk ih =>
    intro h
    refine .span (ih ho h) (by sfx') ?_
    rw [hk.loc]; intro h; cases h
  case brack ih _ => intro h; exact .span (ih ho h) (by sfx') (by intro h; cases h)
  case call ih _ => intro h; exact .span (ih ho h) (by sfx') (by intro h; cases h)
  case preInc hv hd _ => intro _; exact .tok hv (by intro h; cases h) (by sfx')
  case preDec hv hd _ => intro _; exact .tok hv (by intro h; cases h) (by sfx')
  case unop hu hd ih =>
    intro _
    show SW _ _ (spanLoc _ _)
    rw [hu.1]
    refine .span (i1 := _) (.tok (i := _) rfl (unop_ne hu) (List.suffix_refl _)) (by sfx') ?_
    exact hd.loc_ne (by ord)
  case binop hd ih1 ih2 => intro h; exact .span (ih1 ho h) (by sfx') (hd.loc_ne (by ord))
  case logop hd ih1 ih2 => intro h; exact .span (ih1 ho h) (by sfx') (hd.loc_ne (by ord))
  case assign hd ih1 ih2 =>
    intro h
    show SW _ _ (spanLoc _ _)
    rw [← loc_patt]
    exact .span (ih1 ho ((sharp_patt _).trans h)) (by sfx') (hd.loc_ne (by ord))
  case binAssign hd ih1 ih2 =>
    intro h
    show SW _ _ (spanLoc _ _)
    rw [← loc_target]
    exact .span (ih1 ho ((sharp_target _).trans h)) (by sfx') (hd.loc_ne (by ord))
  case exprsLast ih =>
    rintro a ha h
    cases ha
    exact ih ho h
  case exprsCons hd ih1 ih2 =>
    rintro a ha h
    cases ha
    exact (ih1 ho h).shrink (by sfx')
  case exprSeq hd hz ih =>
    intro h
    refine .span (ih ho _ rfl h) (List.suffix_refl _) ?_
    have := hd.root ho _ _ rfl hz
    obtain ⟨p, q, m, t, e, -⟩ := this
    intro hn
    rw [hn, spanLoc_none] at e
    cases e
  all_goals first
    | trivial
    | (rename_i ih; exact ih ho)

set_option maxHeartbeats 1000000 in
theorem Grammar.Derives.endsWith (h : Derives (Located S) env nt inp rest x) (ho : Ordered S inp) :
    EndClaim inp rest x := by
  induction h
  case identifier h => intro _; cases h with | mk hv _ => exact .tok (List.suffix_refl _)
  case kNull hv => intro _; exact .tok (List.suffix_refl _)
  case kThis hv => intro _; exact .tok (List.suffix_refl _)
  case kTrue hv => intro _; exact .tok (List.suffix_refl _)
  case kFalse hv => intro _; exact .tok (List.suffix_refl _)
  case number hv => intro _; exact .tok (List.suffix_refl _)
  case string hv => intro _; exact .tok (List.suffix_refl _)
  case regExp hv => intro _; exact .tok (List.suffix_refl _)
  case array => intro _; exact .tok (by sfx')
  case object => intro _; exact .tok (by sfx')
  case newTarget => intro _; exact .tok (by sfx')
  case newArgs => intro _; exact .tok (by sfx')
  case newNoArgs hd _ ih => intro h; exact .span (ih (by ord) h) (by sfx') (by intro h; cases h)
  case function => intro h; cases h
  case preInc => intro h; cases h
  case preDec => intro h; cases h
  case postInc => intro _; exact .tok (by sfx')
  case postDec => intro _; exact .tok (by sfx')
  case cond hb _ hd ih1 ih2 ih3 =>
    intro h
    exact .span (ih3 (by ord) h) (by sfx') (hb.loc_ne (by ord))
  case paren hd ht ih => intro h; exact .paren ht (ih (by ord) h) (by sfx')
  case dot hd _ hk ih =>
    intro h
    show EW _ _ (spanLoc _ _)
    rw [hk.loc]
    exact .span (.tok (List.suffix_refl _)) (by sfx') (hd.loc_ne ho)
  case brack hd _ _ _ _ _ => 
    intro h
    exact .span (.tok (List.suffix_refl _)) (by sfx') (hd.loc_ne ho)
  case call hd _ _ _ _ _ =>
    intro h
    exact .span (.tok (List.suffix_refl _)) (by sfx') (hd.loc_ne ho)
  case unop hu hd ih =>
    intro h
    exact .span (ih (by ord) h) (by sfx') (by rw [hu.1]; intro h; cases h)
  case binop hd _ _ ih1 ih2 => intro h; exact .span (ih2 (by ord) h) (by sfx') (hd.loc_ne ho)
  case logop hd _ _ ih1 ih2 => intro h; exact .span (ih2 (by ord) h) (by sfx') (hd.loc_ne ho)
  case assign hd _ _ ih1 ih2 =>
    intro h
    exact .span (ih2 (by ord) h) (by sfx') (by rw [← loc_patt]; exact hd.loc_ne ho)
  case binAssign hd _ _ ih1 ih2 =>
    intro h
    exact .span (ih2 (by ord) h) (by sfx') (by rw [← loc_target]; exact hd.loc_ne ho)
  case exprsLast ih =>
    rintro a ha h
    cases ha
    exact ih ho h
  case exprsCons hd ih1 ih2 =>
    rintro z hz h
    have : ∃ b xs, Ast.toList ‹Ast (.list .expr)› = b :: xs := by
      cases hd
      · exact ⟨_, _, rfl⟩
      · exact ⟨_, _, rfl⟩
    obtain ⟨b, xs, hb⟩ := this
    refine (ih2 (by ord) z ?_ h).widen (by sfx')
    replace hz : (_ :: Ast.toList _).getLast? = _ := hz
    show (Ast.toList _).getLast? = _
    rw [hb] at hz ⊢
    simpa using hz
  case exprSeq hd hz ih =>
    intro h
    refine .span (ih ho _ ?_ ?_) (List.suffix_refl _) ?_
    · exact (List.getLast?_cons_cons ..).trans hz
    · refine (sharpEnd_last (.cons _ (.cons _ _)) _ ?_).symm.trans h
      exact (List.getLast?_cons_cons ..).trans hz
    · have := hd.root ho _ _ rfl hz
      obtain ⟨p, q, m, t, e, -⟩ := this
      intro hn
      rw [hn] at e
      cases e
  all_goals first
    | trivial
    | (rename_i ih; exact ih ho)

/-- The nonterminals of statements and the like. -/
def Grammar.NT.spanned : {c : Cat} → NT c → Bool
  | _, .stmt | _, .block | _, .decl | _, .case => true
  | _, _ => false

theorem label_located {b : Bool} {j : Id} {s : Stmt} (ho : Ordered S (t :: t2 :: i))
    (hi : Ident env b t j) (h : Located S i rest s.loc) (hne : rest.length < i.length) :
    Located S (t :: t2 :: i) rest (spanLoc j.location s.loc) := by
  obtain ⟨p, q, m, e, h0, -, hq, rfl, ha⟩ := h
  have hw := (ho.mem (List.mem_cons_self ..)).tok
  cases m with
  | nil => simp at hne
  | cons u m =>
    have hlt : ∀ v ∈ [t, t2], v.location.end.offset ≤ u.location.end.offset := fun v hv =>
      Ordered.lt (i := [t, t2]) (i1 := u :: m ++ rest) ho hv (by simp)
    have hu := ha u (by simp)
    rw [hi.loc, e]
    refine ⟨_, q, t :: t2 :: u :: m, rfl, ?_, ⟨⟨_, ?_, hw.2.2.1⟩, fun v hv => ?_, fun v hv _ => ?_,
      fun v hv => ?_⟩, hq, rfl, ?_⟩
    · have := hlt t (by simp); omega
    · have := hw.1; have := hw.2.1; omega
    · cases ho with
      | cons _ hl _ =>
        have := hl v (List.mem_of_mem_drop (i := 1) (by simpa using hv))
        have := hw.1
        omega
    · cases hv
      refine ⟨true, true, ?_⟩
      rw [slice, Nat.sub_self, List.take_zero]
      exact .nil
    · cases hv
      exact .inl (Nat.le_refl _)
    · intro v hv
      rcases List.mem_cons.1 hv with rfl | hv
      · have := hlt v (by simp); omega
      · rcases List.mem_cons.1 hv with rfl | hv
        · have := hlt v (by simp); omega
        · exact ha v hv

theorem located_tok (h : Located S (t :: i) rest l) (hs : rest <:+ i) :
    Located S (t :: i) rest l ∧ rest.length < (t :: i).length :=
  ⟨h, Nat.lt_succ_of_le hs.length_le⟩

set_option maxHeartbeats 1000000 in
theorem Grammar.Derives.spans (h : Derives (Located S) env nt inp rest x) (ho : Ordered S inp)
    (hn : nt.spanned = true) : Located S inp rest x.loc ∧ rest.length < inp.length := by
  induction h
  case labelStmt hi _ hd ih =>
    obtain ⟨h1, h2⟩ := ih (by ord) rfl
    exact ⟨label_located ho hi h1 h2, by simp only [List.length_cons]; omega⟩
  case blockStmt ih => exact ih ho rfl
  case exprStmt hd ht hl ih =>
    refine ⟨hl, ?_⟩
    have : Rg S _ _ _ := hd.root ho
    obtain ⟨-, -, m, t, -, -, -, -, rfl, hm, -⟩ := this
    have := List.length_pos_of_mem hm
    have := ht.suffix.length_le
    rw [List.length_append]
    omega
  case declFun hd hl ih =>
    refine ⟨hl, ?_⟩
    have : Rg S _ _ _ := hd.root ho
    obtain ⟨-, -, m, t, -, -, -, -, rfl, hm, -⟩ := this
    have := List.length_pos_of_mem hm
    rw [List.length_append]
    omega
  all_goals first
    | (cases hn; done)
    | (refine located_tok (by assumption) ?_; sfx')

end Edges

end Esprit
