import Verif.Model.DebugToken
import Verif.Spec.DebugToken
import Verif.Proofs.DebugAst
import Verif.Proofs.DebugSame
import Verif.Spec.Lex

/-! The texts of tokens and errors identify them. -/

namespace Esprit

open Dbg

/-! ### The calls are well formed -/

theorem Reserved.isWord (r : Reserved) : IsWord r.debug := by cases r <;> decide

theorem reserved_debug_inj {a b : Reserved} (h : a.debug = b.debug) : a = b := by
  have : ∀ r : Reserved, (match (Lex.reservedWords.find? fun p => p.2.debug = r.debug) with
      | some p => decide (p.2 = r) | none => false) = true := by
    intro r; cases r <;> decide +kernel
  have h1 := this a
  have h2 := this b
  rw [h] at h1
  split at h1
  · rename_i p hp
    rw [hp] at h2
    exact (of_decide_eq_true h1).symm.trans (of_decide_eq_true h2)
  · cases h1

theorem decimal_isWord (n : Nat) : IsWord (Nat.toDigits 10 n) := by
  refine ⟨?_, fun c hc hd => ?_⟩
  · intro h
    have := Nat.length_toDigits_pos (b := 10) (n := n)
    rw [h] at this
    cases this
  · have := decimal_digit hc
    simp only [Delimiter, List.mem_cons, List.not_mem_nil, or_false] at hd
    rcases hd with (rfl | rfl | rfl | rfl | rfl | rfl | rfl | rfl | rfl | rfl) <;> exact absurd this (by decide)

theorem ok_chr (c : Option Char) : Ok .value (Dbg.opt .chr c) := ok_opt fun _ => trivial
theorem ok_strOpt (c : Option Str) : Ok .value (Dbg.opt .str c) := ok_opt fun _ => trivial

theorem CharCase.ok (c : CharCase) : Ok .value c.dbg := by
  cases c
  · exact (by decide : IsWord c!"LowerCase")
  · exact (by decide : IsWord c!"UpperCase")

theorem Sign.ok (c : Sign) : Ok .value c.dbg := by
  cases c
  · exact (by decide : IsWord c!"Plus")
  · exact (by decide : IsWord c!"Minus")

theorem Exp.ok (e : Exp) : Ok .value e.dbg := by
  refine ok_record (by decide) ?_
  simp only [List.mem_cons, List.not_mem_nil, or_false, forall_eq_or_imp, forall_eq]
  exact ⟨⟨by decide, CharCase.ok _⟩, ⟨by decide, ok_opt Sign.ok⟩, ⟨by decide, trivial⟩⟩

theorem Radix.ok (r : Radix) : Ok .value r.dbg := by
  cases r <;> refine ok_tup (by decide) ?_ <;>
    simp only [List.mem_cons, List.not_mem_nil, or_false, forall_eq]
  · exact CharCase.ok _
  · exact ok_opt CharCase.ok
  · exact CharCase.ok _

theorem NumberSource.ok (n : NumberSource) : Ok .value n.dbg := by
  cases n <;> refine ok_tup (by decide) ?_ <;>
    simp only [List.mem_cons, List.not_mem_nil, or_false, forall_eq_or_imp, forall_eq]
  · exact ⟨trivial, ok_opt Exp.ok⟩
  · exact ⟨Radix.ok _, trivial⟩
  · exact ⟨ok_strOpt _, ok_strOpt _, ok_opt Exp.ok⟩

/-- A tuple with one field. -/
theorem ok_one {n : Str} {d : Dbg} (hn : IsWord n) (h : Ok .value d) : Ok .value (tup n [d]) :=
  ok_tup hn (by simpa using h)

/-- A tuple with two fields. -/
theorem ok_two {n : Str} {d d' : Dbg} (hn : IsWord n) (h : Ok .value d) (h' : Ok .value d') :
    Ok .value (tup n [d, d']) :=
  ok_tup hn (by simpa using ⟨h, h'⟩)

theorem ok_word {s : Str} (h : IsWord s) : Ok .value (.word s) := h

theorem TokenData.ok [LawfulDebugStd] (v : TokenData) : Ok .value v.dbg := by
  cases v
  case reserved r => exact ok_one (by decide) r.isWord
  case number n => exact ok_one (by decide) n.ok
  case string s => exact ok_one (by decide) s.ok
  case regExp r => exact ok_one (by decide) r.ok
  case identifier n => exact ok_one (by decide) n.ok
  all_goals exact ok_word (by decide)

theorem Token.ok [LawfulDebugStd] (t : Token) : Ok .value t.dbg := by
  refine ok_record (by decide) ?_
  simp only [List.mem_cons, List.not_mem_nil, or_false, forall_eq_or_imp, forall_eq]
  exact ⟨⟨by decide, t.location.isWord⟩, ⟨by decide, boolDbg_ok _⟩, ⟨by decide, TokenData.ok _⟩⟩

theorem LexError.ok (e : LexError) : Ok .value e.dbg := by
  cases e <;> first
    | exact ok_word (by decide)
    | exact ok_one (by decide) (ok_chr _)
    | exact ok_one (by decide) trivial
    | exact ok_one (by decide) (decimal_isWord _)
    | exact ok_one (by decide) (Reserved.isWord _)

theorem CoverError.ok (e : CoverError) : Ok .value e.dbg := by
  cases e <;> exact ok_one (by decide) (Loc.ok _)

theorem PError.ok [LawfulDebugStd] (e : PError) : Ok .value e.dbg := by
  cases e <;> first
    | exact ok_one (by decide) (Token.ok _)
    | exact ok_one (by decide) (LexError.ok _)
    | exact ok_one (by decide) (Span.isWord _)
    | exact ok_one (by decide) (Id.ok _)
    | exact ok_two (by decide) (Span.isWord _) (Atom.isWord _)
    | exact ok_two (by decide) (Loc.ok _) (StringLiteral.ok _)
    | exact ok_two (by decide) (Loc.ok _) (CoverError.ok _)
    | exact ok_one (by decide) (Loc.ok _)
    | exact ok_one (by decide) (Ast.dbg_ok _)
    | exact ok_one (by decide) trivial

theorem Check.ok [LawfulDebugStd] (c : Check) : Ok .value c.dbg := by
  cases c <;> exact ok_one (by decide) (PError.ok _)

/-! ### From calls to tokens and errors -/

theorem one_inj {n n' : Str} {d d' : Dbg} (h : tup n [d] = tup n' [d']) : d = d' := by
  have := (tup_inj h).2
  simpa using this

theorem two_inj {n n' : Str} {d d' e e' : Dbg} (h : tup n [d, e] = tup n' [d', e']) : d = d' ∧ e = e' := by
  have := (tup_inj h).2
  simpa using this

theorem opt_inj {α : Type} {f : α → Dbg} (hf : ∀ {x y}, f x = f y → x = y) {a b : Option α}
    (h : Dbg.opt f a = Dbg.opt f b) : a = b := by
  cases a <;> cases b
  · rfl
  · exact differ h rfl
  · exact differ h rfl
  · rw [hf (one_inj h)]

theorem CharCase.dbg_inj {a b : CharCase} (h : a.dbg = b.dbg) : a = b := by
  cases a <;> cases b <;> first | rfl | exact differ h rfl

theorem Sign.dbg_inj {a b : Sign} (h : a.dbg = b.dbg) : a = b := by
  cases a <;> cases b <;> first | rfl | exact differ h rfl

theorem Exp.dbg_inj {a b : Exp} (h : a.dbg = b.dbg) : a = b := by
  have h := (record_inj h).2
  simp only [List.cons.injEq, Prod.mk.injEq, true_and, and_true, Dbg.str.injEq] at h
  obtain ⟨h1, h2, h3⟩ := h
  cases a; cases b
  rw [Exp.mk.injEq]
  exact ⟨CharCase.dbg_inj h1, opt_inj Sign.dbg_inj h2, h3⟩

theorem Radix.dbg_inj {a b : Radix} (h : a.dbg = b.dbg) : a = b := by
  cases a <;> cases b <;> first
    | exact differ h rfl
    | rw [CharCase.dbg_inj (one_inj h)]
    | rw [opt_inj CharCase.dbg_inj (one_inj h)]

theorem NumberSource.dbg_inj {a b : NumberSource} (h : a.dbg = b.dbg) : a = b := by
  cases a <;> cases b
  case decimalInt.decimalInt =>
    obtain ⟨h1, h2⟩ := two_inj h
    rw [Dbg.str.inj h1, opt_inj Exp.dbg_inj h2]
  case radixInt.radixInt =>
    obtain ⟨h1, h2⟩ := two_inj h
    rw [Radix.dbg_inj h1, Dbg.str.inj h2]
  case float.float =>
    have h := (tup_inj h).2
    simp only [List.cons.injEq, and_true] at h
    rw [opt_inj Dbg.str.inj h.1, opt_inj Dbg.str.inj h.2.1, opt_inj Exp.dbg_inj h.2.2]
  all_goals exact differ h rfl

theorem Span.agree_of_debug {a b : Span} (h : a.debug = b.debug) : a.Agree b := by
  obtain ⟨h1, h2⟩ := Span.debug_injective h
  obtain ⟨h3, h4⟩ := Posn.debug_injective h1
  obtain ⟨h5, h6⟩ := Posn.debug_injective h2
  exact ⟨h3, h4, h5, h6⟩

theorem Loc.agree_of_dbg {a b : Loc} (h : a.dbg = b.dbg) : Loc.Agree a b := by
  cases a <;> cases b
  · exact .none
  · exact differ h rfl
  · exact differ h rfl
  · exact .some (Span.agree_of_debug (Dbg.word.inj (one_inj h)))

/-- The tokens with nothing in them. -/
private def units : List TokenData :=
  [.lBrace, .rBrace, .lParen, .rParen, .lBrack, .rBrack, .dot, .ellipsis, .semi, .comma, .lAngle, .rAngle,
    .lEq, .gEq, .eq, .nEq, .strictEq, .strictNEq, .plus, .minus, .star, .mod, .slash, .inc, .dec, .lShift,
    .rShift, .uRShift, .bitAnd, .bitOr, .bitXor, .bang, .tilde, .logicalAnd, .logicalOr, .question, .colon,
    .assign, .plusAssign, .minusAssign, .starAssign, .slashAssign, .modAssign, .lShiftAssign, .rShiftAssign,
    .uRShiftAssign, .bitAndAssign, .bitOrAssign, .bitXorAssign, .arrow, .eof]

/-- The name of a token with nothing in it. -/
private def unitName : TokenData → Option Str
  | .reserved _ | .number _ | .string _ | .regExp _ | .identifier _ => none
  | v => letI : DebugStd := ⟨fun _ => [], fun _ => [], fun _ => []⟩; some v.dbg.lead

private theorem unit_find (v : TokenData) (h : unitName v ≠ none) :
    units.find? (fun u => unitName u = unitName v) = some v := by
  cases v <;> first | (exact absurd rfl h) | decide +kernel

private theorem unit_inj {v w : TokenData} (h : unitName v ≠ none) (he : unitName v = unitName w) : v = w := by
  have h1 := unit_find v h
  rw [he] at h h1
  exact Option.some.inj (h1.symm.trans (unit_find w h))

private theorem unit_dbg [DebugStd] (v : TokenData) :
    (∀ n, unitName v = some n → v.dbg = .word n) ∧ (unitName v = none → ∃ n l, v.dbg = tup n l) := by
  cases v <;> refine ⟨?_, ?_⟩ <;> intro h <;> first
    | (rintro ⟨⟩; rfl)
    | (intro h'; cases h')
    | (cases h; rfl)
    | (cases h; done)
    | exact ⟨_, _, rfl⟩

theorem TokenData.agree_of_dbg [LawfulDebugStd] {v w : TokenData} (hn : ∀ n ∈ v.numbers, n.value ≠ .nan)
    (h : v.dbg = w.dbg) : v.Agree w := by
  cases hv : unitName v with
  | some a =>
    rw [(unit_dbg v).1 a hv] at h
    cases hw : unitName w with
    | some b =>
      rw [(unit_dbg w).1 b hw] at h
      cases h
      obtain rfl := unit_inj (by rw [hv]; nofun) (hv.trans hw.symm)
      exact .simple fun n e => by subst e; cases hv
    | none =>
      obtain ⟨n, l, e⟩ := (unit_dbg w).2 hw
      rw [e] at h
      cases h
  | none =>
    cases hw : unitName w with
    | some b =>
      obtain ⟨n, l, e⟩ := (unit_dbg v).2 hv
      rw [e, (unit_dbg w).1 b hw] at h
      cases h
    | none =>
      cases v <;> first | (cases hv; done) | skip
      all_goals (cases w <;> first | (cases hw; done) | exact differ h rfl | skip)
      case reserved => rw [reserved_debug_inj (Dbg.word.inj (one_inj h))]; exact .reserved
      case number => exact .number (NumberLiteral.same_of_dbg (hn _ (by simp [TokenData.numbers])) (one_inj h))
      case string => exact .string (StringLiteral.value_of_dbg (one_inj h))
      case regExp => exact .regExp (RegExpLiteral.same_of_dbg (one_inj h)).1 (RegExpLiteral.same_of_dbg (one_inj h)).2
      case identifier => rw [Name.dbg_inj (one_inj h)]; exact .identifier

theorem Token.agree_of_dbg [LawfulDebugStd] {t u : Token} (hn : ∀ n ∈ t.value.numbers, n.value ≠ .nan)
    (h : t.dbg = u.dbg) : t.Agree u := by
  have h := (record_inj h).2
  simp only [List.cons.injEq, Prod.mk.injEq, true_and, and_true, Dbg.word.injEq] at h
  exact ⟨Span.agree_of_debug h.1, boolDbg_inj h.2.1, TokenData.agree_of_dbg hn h.2.2⟩

theorem Id.agree_of_dbg {i j : Id} (h : i.dbg = j.dbg) : i.Agree j := by
  have h := (record_inj h).2
  simp only [List.cons.injEq, Prod.mk.injEq, true_and, and_true] at h
  exact ⟨Loc.agree_of_dbg h.1, Name.dbg_inj h.2⟩

theorem LexError.dbg_inj {a b : LexError} (h : a.dbg = b.dbg) : a = b := by
  cases a <;> cases b <;> first
    | rfl
    | exact differ h rfl
    | rw [opt_inj Dbg.chr.inj (one_inj h)]
    | rw [Dbg.chr.inj (one_inj h)]
    | rw [decimal_injective (Dbg.word.inj (one_inj h))]
    | rw [reserved_debug_inj (Dbg.word.inj (one_inj h))]

theorem CoverError.agree_of_dbg {a b : CoverError} (h : a.dbg = b.dbg) : a.Agree b := by
  cases a <;> cases b
  · exact .invalidAssignTarget (Loc.agree_of_dbg (one_inj h))
  · exact differ h rfl
  · exact differ h rfl
  · exact .invalidPropPatt (Loc.agree_of_dbg (one_inj h))

theorem Ast.eqv_of_dbg [LawfulDebugStd] {c : Cat} {x y : Ast c} (hn : ∀ n ∈ x.numbers, n.value ≠ .nan)
    (h : x.dbg = y.dbg) : x.untrack.eqv y.untrack = true :=
  (Ast.eqv_iff _ _).2 (Ast.agree_of_debug hn (congrArg Dbg.text h))

theorem PError.agree_of_dbg [LawfulDebugStd] {a b : PError} (hn : ∀ n ∈ a.numbers, n.value ≠ .nan)
    (h : a.dbg = b.dbg) : a.Agree b := by
  cases a <;> cases b <;> first | exact differ h rfl | skip
  case unexpectedToken => exact .unexpectedToken (Token.agree_of_dbg hn (one_inj h))
  case failedASI => exact .failedASI (Token.agree_of_dbg hn (one_inj h))
  case lexError => rw [LexError.dbg_inj (one_inj h)]; exact .lexError
  case topLevelReturn => exact .topLevelReturn (Span.agree_of_debug (Dbg.word.inj (one_inj h)))
  case illegalBreak => exact .illegalBreak (Token.agree_of_dbg hn (one_inj h))
  case illegalContinue => exact .illegalContinue (Token.agree_of_dbg hn (one_inj h))
  case invalidLabel => exact .invalidLabel (Id.agree_of_dbg (one_inj h))
  case invalidLabelType => exact .invalidLabelType (Id.agree_of_dbg (one_inj h))
  case contextualKeyword =>
    obtain ⟨h1, h2⟩ := two_inj h
    rw [Atom.debug_inj (Dbg.word.inj h2)]
    exact .contextualKeyword (Span.agree_of_debug (Dbg.word.inj h1))
  case illegalStrictBinding =>
    obtain ⟨h1, h2⟩ := two_inj h
    rw [Atom.debug_inj (Dbg.word.inj h2)]
    exact .illegalStrictBinding (Span.agree_of_debug (Dbg.word.inj h1))
  case unexpectedDirective =>
    obtain ⟨h1, h2⟩ := two_inj h
    exact .unexpectedDirective (Loc.agree_of_dbg h1) (StringLiteral.value_of_dbg h2)
  case unexpectedModule => exact .unexpectedModule (Loc.agree_of_dbg (one_inj h))
  case importInScript => exact .importInScript (Ast.eqv_of_dbg hn (one_inj h))
  case exportInScript => exact .exportInScript (Ast.eqv_of_dbg hn (one_inj h))
  case forOfLetExpr => exact .forOfLetExpr (Span.agree_of_debug (Dbg.word.inj (one_inj h)))
  case duplicateDefault => exact .duplicateDefault (Token.agree_of_dbg hn (one_inj h))
  case strictWith => exact .strictWith (Token.agree_of_dbg hn (one_inj h))
  case throwArgument => exact .throwArgument (Token.agree_of_dbg hn (one_inj h))
  case orphanTry => exact .orphanTry (Token.agree_of_dbg hn (one_inj h))
  case invalidLHS =>
    obtain ⟨h1, h2⟩ := two_inj h
    exact .invalidLHS (Loc.agree_of_dbg h1) (CoverError.agree_of_dbg h2)
  case unsupportedFeature => rw [Dbg.str.inj (one_inj h)]; exact .unsupportedFeature
  case compoundParamWithUseStrict => exact .compoundParamWithUseStrict (Ast.eqv_of_dbg hn (one_inj h))

theorem Check.agree_of_dbg [LawfulDebugStd] {a b : Check} (hn : ∀ n ∈ a.numbers, n.value ≠ .nan)
    (h : a.dbg = b.dbg) : a.Agree b := by
  cases a <;> cases b
  · exact .strict (PError.agree_of_dbg hn (one_inj h))
  · exact differ h rfl
  · exact differ h rfl
  · exact .module (PError.agree_of_dbg hn (one_inj h))

/-! ### From tokens and errors to calls -/

theorem Span.debug_of_agree {a b : Span} (h : a.Agree b) : a.debug = b.debug := by
  obtain ⟨h1, h2, h3, h4⟩ := h
  simp only [Span.debug, Posn.debug, h1, h2, h3, h4]

theorem Loc.dbg_of_agree {a b : Loc} (h : Loc.Agree a b) : a.dbg = b.dbg := by
  cases h with
  | none => rfl
  | some h => simp only [Loc.dbg, Dbg.opt, Span.debug_of_agree h]

theorem TokenData.dbg_of_agree [LawfulDebugStd] {v w : TokenData} (hv : ∀ n ∈ v.numbers, n.value ≠ .num true 0)
    (hw : ∀ n ∈ w.numbers, n.value ≠ .num true 0) (h : v.Agree w) : v.dbg = w.dbg := by
  cases h with
  | number h =>
    rw [TokenData.dbg, TokenData.dbg, NumberLiteral.dbg_of_same (hv _ (by simp [TokenData.numbers]))
      (hw _ (by simp [TokenData.numbers])) h]
  | string h => simp only [TokenData.dbg, StringLiteral.dbg, h]
  | regExp h1 h2 => simp only [TokenData.dbg, RegExpLiteral.dbg, h1, (alphabetize_eq_iff _ _).2 h2]
  | _ => rfl

theorem Token.dbg_of_agree [LawfulDebugStd] {t u : Token} (ht : ∀ n ∈ t.value.numbers, n.value ≠ .num true 0)
    (hu : ∀ n ∈ u.value.numbers, n.value ≠ .num true 0) (h : t.Agree u) : t.dbg = u.dbg := by
  rw [Token.dbg, Token.dbg, Span.debug_of_agree h.location, h.newline, TokenData.dbg_of_agree ht hu h.value]

theorem Id.dbg_of_agree {i j : Id} (h : i.Agree j) : i.dbg = j.dbg := by
  rw [Id.dbg, Id.dbg, Loc.dbg_of_agree h.location, h.name]

theorem CoverError.dbg_of_agree {a b : CoverError} (h : a.Agree b) : a.dbg = b.dbg := by
  cases h with
  | invalidAssignTarget h => rw [CoverError.dbg, CoverError.dbg, Loc.dbg_of_agree h]
  | invalidPropPatt h => rw [CoverError.dbg, CoverError.dbg, Loc.dbg_of_agree h]

/-- Equal errors without trees have the same text. -/
theorem PError.dbg_of_agree [LawfulDebugStd] {a b : PError} (ha : ∀ n ∈ a.numbers, n.value ≠ .num true 0)
    (hb : ∀ n ∈ b.numbers, n.value ≠ .num true 0) (hi : ∀ x, a ≠ .importInScript x)
    (he : ∀ x, a ≠ .exportInScript x) (hc : ∀ x, a ≠ .compoundParamWithUseStrict x)
    (h : a.Agree b) : a.dbg = b.dbg := by
  cases h
  case lexError => rfl
  case unsupportedFeature => rfl
  case importInScript => exact absurd rfl (hi _)
  case exportInScript => exact absurd rfl (he _)
  case compoundParamWithUseStrict => exact absurd rfl (hc _)
  case topLevelReturn h => simp only [PError.dbg, Span.debug_of_agree h]
  case contextualKeyword h => simp only [PError.dbg, Span.debug_of_agree h]
  case illegalStrictBinding h => simp only [PError.dbg, Span.debug_of_agree h]
  case forOfLetExpr h => simp only [PError.dbg, Span.debug_of_agree h]
  case invalidLabel h => simp only [PError.dbg, Id.dbg_of_agree h]
  case invalidLabelType h => simp only [PError.dbg, Id.dbg_of_agree h]
  case unexpectedDirective h1 h2 => simp only [PError.dbg, Loc.dbg_of_agree h1, StringLiteral.dbg, h2]
  case unexpectedModule h1 => simp only [PError.dbg, Loc.dbg_of_agree h1]
  case invalidLHS h1 h2 => simp only [PError.dbg, Loc.dbg_of_agree h1, CoverError.dbg_of_agree h2]
  all_goals (rename_i h; simp only [PError.dbg, Token.dbg_of_agree ha hb h])

end Esprit
