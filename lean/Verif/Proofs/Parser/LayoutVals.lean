import Verif.Proofs.Parser.LayoutBase

/-! The helper functions of the parser preserve equality up to positions. -/

set_option linter.unusedSectionVars false

namespace Esprit

namespace Rel

variable {α β : Type} [Blur α] [Blur β]

theorem ast {c : Cat} {a a' : Ast c} (h : Rel a a') : a.blur = a'.blur := h

theorem loc {c : Cat} {a a' : Ast c} (h : Rel a a') : blurLoc a.loc = blurLoc a'.loc := by
  rw [Ast.loc_blur, Ast.loc_blur, h.ast]

theorem reverse {xs xs' : List α} (h : Rel xs xs') : Rel xs.reverse xs'.reverse := by
  show xs.reverse.map _ = xs'.reverse.map _
  have h : xs.map Blur.blur = xs'.map Blur.blur := h
  rw [List.map_reverse, List.map_reverse, h]

theorem dropLast {xs xs' : List α} (h : Rel xs xs') : Rel xs.dropLast xs'.dropLast := by
  show xs.dropLast.map _ = xs'.dropLast.map _
  have h : xs.map Blur.blur = xs'.map Blur.blur := h
  rw [List.map_dropLast, List.map_dropLast, h]

theorem length {xs xs' : List α} (h : Rel xs xs') : xs.length = xs'.length := by
  have h := congrArg List.length (show xs.map Blur.blur = xs'.map Blur.blur from h)
  simpa using h

theorem getLast? {xs xs' : List α} (h : Rel xs xs') : Rel xs.getLast? xs'.getLast? := by
  show xs.getLast?.map _ = xs'.getLast?.map _
  have h : xs.map Blur.blur = xs'.map Blur.blur := h
  rw [← List.getLast?_map, ← List.getLast?_map, h]

theorem cons_inv {x x' : α} {xs xs' : List α} (h : Rel (x :: xs) (x' :: xs')) :
    Rel x x' ∧ Rel xs xs' := by
  have h : Blur.blur x :: xs.map Blur.blur = Blur.blur x' :: xs'.map Blur.blur := h
  injection h with h1 h2
  exact ⟨h1, h2⟩

theorem list_cases {xs xs' : List α} (h : Rel xs xs') :
    (xs = [] ∧ xs' = []) ∨
      ∃ y y' ys ys', xs = y :: ys ∧ xs' = y' :: ys' ∧ Rel y y' ∧ Rel ys ys' := by
  cases xs with
  | nil => cases xs' with
    | nil => exact .inl ⟨rfl, rfl⟩
    | cons y ys => cases h
  | cons y ys => cases xs' with
    | nil => cases h
    | cons y' ys' => exact .inr ⟨_, _, _, _, rfl, rfl, (cons_inv h).1, (cons_inv h).2⟩

theorem opt_cases {x x' : Option α} (h : Rel x x') :
    (x = none ∧ x' = none) ∨ ∃ y y', x = some y ∧ x' = some y' ∧ Rel y y' := by
  cases x with
  | none => cases x' with
    | none => exact .inl ⟨rfl, rfl⟩
    | some y => cases h
  | some y => cases x' with
    | none => cases h
    | some y' => exact .inr ⟨_, _, rfl, rfl, some_iff.1 h⟩

theorem pair {a a' : α} {b b' : β} (h : Rel a a') (h' : Rel b b') : Rel (a, b) (a', b') :=
  show (_, _) = (_, _) from Prod.ext h h'

theorem fst {x x' : α × β} (h : Rel x x') : Rel x.1 x'.1 := congrArg Prod.fst h
theorem snd {x x' : α × β} (h : Rel x x') : Rel x.2 x'.2 := congrArg Prod.snd h

theorem inl {a a' : α} (h : Rel a a') : Rel (α := α ⊕ β) (.inl a) (.inl a') := congrArg Sum.inl h
theorem inr {b b' : β} (h : Rel b b') : Rel (α := α ⊕ β) (.inr b) (.inr b') := congrArg Sum.inr h

theorem pragma {d d' : Dir} (h : Rel d d') : d.pragma = d'.pragma :=
  (Dir.pragma_blur d).symm.trans ((congrArg Dir.pragma h).trans (Dir.pragma_blur d'))

theorem name {i i' : Id} (h : Rel i i') : i.name = i'.name :=
  (Id.name_blur i).symm.trans
    ((congrArg Id.name (show i.blur = i'.blur from h)).trans (Id.name_blur i'))

theorem patt {p p' : PattId} (h : Rel p p') :
    (∃ i i', p = .pSimple (.ident i) ∧ p' = .pSimple (.ident i') ∧ Rel i i') ∨
      ∃ c c', p = .pCompound c ∧ p' = .pCompound c' ∧ Rel c c' := by
  have h := h.ast
  cases p with
  | pSimple x => cases p' with
    | pSimple y =>
      cases x with | ident i => cases y with | ident j =>
      refine .inl ⟨_, _, rfl, rfl, ?_⟩
      rw [Ast.blur_pSimple, Ast.blur_pSimple, Ast.blur_ident, Ast.blur_ident] at h
      injection h with _ h
      injection h
    | pCompound d => rw [Ast.blur_pSimple, Ast.blur_pCompound] at h; cases h
  | pCompound c => cases p' with
    | pSimple y => rw [Ast.blur_pSimple, Ast.blur_pCompound] at h; cases h
    | pCompound d =>
      refine .inr ⟨_, _, rfl, rfl, ?_⟩
      rw [Ast.blur_pCompound, Ast.blur_pCompound] at h
      injection h

theorem sitem {x x' : StmtListItem} (h : Rel x x') :
    (∃ i i', x = .siStmt i ∧ x' = .siStmt i' ∧ Rel i i') ∨
      ∃ c c', x = .siDecl c ∧ x' = .siDecl c' ∧ Rel c c' := by
  have h := h.ast
  cases x with
  | siStmt x => cases x' with
    | siStmt y =>
      refine .inl ⟨_, _, rfl, rfl, ?_⟩
      rw [Ast.blur_siStmt, Ast.blur_siStmt] at h
      injection h
    | siDecl d => rw [Ast.blur_siStmt, Ast.blur_siDecl] at h; cases h
  | siDecl c => cases x' with
    | siStmt y => rw [Ast.blur_siStmt, Ast.blur_siDecl] at h; cases h
    | siDecl d =>
      refine .inr ⟨_, _, rfl, rfl, ?_⟩
      rw [Ast.blur_siDecl, Ast.blur_siDecl] at h
      injection h

theorem paramList {p p' : Ast .params} (h : Rel p p') : Rel (P.paramList p) (P.paramList p') := by
  have h := h.ast
  cases p with | params l ps rest => cases p' with | params l' ps' rest' =>
  show List.map Ast.blur ps.toList = List.map Ast.blur ps'.toList
  rw [Ast.blur_params, Ast.blur_params] at h
  injection h with _ h
  rw [Ast.toList_blur, Ast.toList_blur, h]

theorem dirsOf {p p' : Script} (h : Rel p p') : Rel (P.dirsOf p) (P.dirsOf p') := by
  have h := h.ast
  cases p with | body l ps items => cases p' with | body l' ps' items' =>
  show List.map Dir.blur ps = List.map Dir.blur ps'
  rw [Ast.blur_body, Ast.blur_body] at h
  injection h with _ h

theorem functionBodyCheck {ps ps' : List PattId} {ds ds' : List Dir} (hp : Rel ps ps')
    (hd : Rel ds ds') : Rel (P.functionBodyCheck ps ds) (P.functionBodyCheck ps' ds') := by
  unfold P.functionBodyCheck
  have h1 : ∀ {ds ds' : List Dir}, Rel ds ds' →
      (ds.any fun d => decide (d.pragma = c!"use strict")) =
        ds'.any fun d => decide (d.pragma = c!"use strict") := by
    intro ds
    induction ds with
    | nil =>
      intro ds' h
      cases ds' with
      | nil => rfl
      | cons => cases h
    | cons d ds ih =>
      intro ds' h
      cases ds' with
      | nil => cases h
      | cons d' ds' =>
        rw [List.any_cons, List.any_cons, ih (cons_inv h).2, (cons_inv h).1.pragma]
  rw [h1 hd]
  split
  · induction ps generalizing ps' with
    | nil => cases ps' with
      | nil => rfl
      | cons => cases hp
    | cons p ps ih => cases ps' with
      | nil => cases hp
      | cons p' ps' =>
        rw [List.findSome?_cons, List.findSome?_cons]
        rcases (cons_inv hp).1.patt with ⟨i, i', rfl, rfl, h⟩ | ⟨c, c', rfl, rfl, h⟩
        · exact ih (cons_inv hp).2
        · show some _ = some _
          exact congrArg some (congrArg Check.strict (congrArg PError.compoundParamWithUseStrict h))
  · rfl

theorem deref {d d' : Deref} {e e' : Expr} (h : Rel d d') (he : Rel e e') :
    Rel (d.appendTo e) (d'.appendTo e') := by
  have h0 := he.ast
  cases d with
  | brack x t => cases d' with
    | brack x' t' =>
      have h : Deref.brack x.blur t.blur = .brack x'.blur t'.blur := h
      injection h with h1 h2
      show Ast.blur (.eBrack _ e x) = Ast.blur (.eBrack _ e' x')
      rw [Ast.blur_eBrack, Ast.blur_eBrack, blurLoc_spanLoc, blurLoc_spanLoc, he.loc, h0, h1]
      rfl
    | dot k => cases h
  | dot k => cases d' with
    | brack x' t' => cases h
    | dot k' =>
      have h : Deref.dot k.blur = .dot k'.blur := h
      injection h with h1
      show Ast.blur (.eDot _ e k) = Ast.blur (.eDot _ e' k')
      rw [Ast.blur_eDot, Ast.blur_eDot, blurLoc_spanLoc, blurLoc_spanLoc, he.loc, h0,
        DotKey.location_blur, DotKey.location_blur, h1]

theorem args {a a' : Arguments} (h : Rel a a') : Rel a.args a'.args := by
  exact congrArg Arguments.args h

theorem appendTo {a a' : Arguments} {e e' : Expr} (h : Rel a a') (he : Rel e e') :
    Rel (a.appendTo e) (a'.appendTo e') := by
  have h1 : a.args.map Ast.blur = a'.args.map Ast.blur := h.args
  have h0 := he.ast
  show Ast.blur (.eCall _ e _) = Ast.blur (.eCall _ e' _)
  rw [Ast.blur_eCall, Ast.blur_eCall, blurLoc_spanLoc, blurLoc_spanLoc, he.loc, h0,
    Ast.blur_ofList, Ast.blur_ofList, h1]
  rfl

theorem appendToNew {a a' : Arguments} {t t' : Token} {e e' : Expr} (h : Rel a a')
    (he : Rel e e') : Rel (a.appendToNew t e) (a'.appendToNew t' e') := by
  have h1 : a.args.map Ast.blur = a'.args.map Ast.blur := h.args
  have h0 := he.ast
  show Ast.blur (.eNew _ e _) = Ast.blur (.eNew _ e' _)
  rw [Ast.blur_eNew, Ast.blur_eNew, blurLoc_spanLoc, blurLoc_spanLoc, h0, Ast.blur_some,
    Ast.blur_some, Ast.blur_ofList, Ast.blur_ofList, h1]
  rfl

theorem suffix {s s' : Suffix} {e e' : Expr} (h : Rel s s') (he : Rel e e') :
    Rel (s.appendTo e) (s'.appendTo e') := by
  cases s with
  | deref d => cases s' with
    | deref d' =>
      have h : Suffix.deref (Blur.blur d) = .deref (Blur.blur d') := h
      injection h with h
      exact Rel.deref h he
    | arguments a => cases h
  | arguments a => cases s' with
    | deref d' => cases h
    | arguments a' =>
      have h : Suffix.arguments (Blur.blur a) = .arguments (Blur.blur a') := h
      injection h with h
      exact Rel.appendTo h he

theorem precedence {o o' : Infix} (h : Rel o o') : o.precedence = o'.precedence := by
  have h0 : ∀ o : Infix, (Blur.blur o : Infix).precedence = o.precedence := by
    intro o; cases o <;> rfl
  rw [← h0 o, ← h0 o', show (Blur.blur o : Infix) = Blur.blur o' from h]

theorem fill {f f' : Frame} {e e' : Expr} (h : Rel f f') (he : Rel e e') :
    Rel (f.fill e) (f'.fill e') := by
  obtain ⟨l, o⟩ := f
  obtain ⟨l', o'⟩ := f'
  have h : Frame.mk l.blur (Blur.blur o) = ⟨l'.blur, Blur.blur o'⟩ := h
  injection h with h1 h2
  have h3 : Rel l l' := h1
  have h0 := he.ast
  cases o with
  | binop o => cases o' with
    | binop o' =>
      have h2 : Infix.binop o.blur = .binop o'.blur := h2
      injection h2 with h2
      show Ast.blur (.eBinop _ o l e) = Ast.blur (.eBinop _ o' l' e')
      rw [Ast.blur_eBinop, Ast.blur_eBinop, blurLoc_spanLoc, blurLoc_spanLoc, he.loc, h3.loc, h0,
        h1, h2]
    | logop o' => cases h2
  | logop o => cases o' with
    | binop o' => cases h2
    | logop o' =>
      have h2 : Infix.logop o.blur = .logop o'.blur := h2
      injection h2 with h2
      show Ast.blur (.eLogop _ o l e) = Ast.blur (.eLogop _ o' l' e')
      rw [Ast.blur_eLogop, Ast.blur_eLogop, blurLoc_spanLoc, blurLoc_spanLoc, he.loc, h3.loc, h0,
        h1, h2]

theorem frame {f f' : Frame} (h : Rel f f') : Rel f.op f'.op := congrArg Frame.op h

theorem extend {s s' : Stack} {e e' : Expr} {o o' : Infix} (h : Rel s s') (he : Rel e e')
    (ho : Rel o o') : Rel (s.extend e o) (s'.extend e' o') := by
  have h0 : Rel (Frame.mk e o) ⟨e', o'⟩ := by
    show Frame.mk e.blur (Blur.blur o) = ⟨e'.blur, Blur.blur o'⟩
    rw [he.ast, show (Blur.blur o : Infix) = Blur.blur o' from ho]
  induction s generalizing s' e e' with
  | nil => cases s' with
    | nil => exact h0.cons rfl
    | cons => cases h
  | cons f fs ih => cases s' with
    | nil => cases h
    | cons f' fs' =>
      obtain ⟨hf, hfs⟩ := cons_inv h
      have hg : f.op.groupsLeft o = f'.op.groupsLeft o' := by
        simp only [Infix.groupsLeft, hf.frame.precedence, ho.precedence]
      rw [Stack.extend.eq_1, Stack.extend.eq_1, hg]
      split
      · refine ih hfs (hf.fill he) ?_
        show Frame.mk (Ast.blur _) (Blur.blur o) = ⟨Ast.blur _, Blur.blur o'⟩
        rw [(hf.fill he).ast, show (Blur.blur o : Infix) = Blur.blur o' from ho]
      · exact h0.cons h

theorem finish {s s' : Stack} {e e' : Expr} (h : Rel s s') (he : Rel e e') :
    Rel (s.finish e) (s'.finish e') := by
  induction s generalizing s' e e' with
  | nil => cases s' with
    | nil => exact he
    | cons => cases h
  | cons f fs ih => cases s' with
    | nil => cases h
    | cons f' fs' => exact ih (s' := fs') (cons_inv h).2 ((cons_inv h).1.fill he)

theorem fromCompoundInit {p p' : Ast (.comp .id)} {e e' : Expr} (h : Rel p p') (he : Rel e e') :
    Rel (Dtor.fromCompoundInit p e) (Dtor.fromCompoundInit p' e') := by
  show Ast.blur (.dtCompound _ p e) = Ast.blur (.dtCompound _ p' e')
  rw [Ast.blur_dtCompound, Ast.blur_dtCompound, blurLoc_spanLoc, blurLoc_spanLoc, he.loc, h.loc,
    h.ast, he.ast]

theorem idLoc {i i' : Id} (h : Rel i i') : blurLoc i.location = blurLoc i'.location :=
  congrArg Id.location h

theorem fromSimpleInit {p p' : Id} {e e' : Expr} (h : Rel p p') (he : Rel e e') :
    Rel (Dtor.fromSimpleInit p e) (Dtor.fromSimpleInit p' e') := by
  show Ast.blur (.dtSimple _ p _) = Ast.blur (.dtSimple _ p' _)
  rw [Ast.blur_dtSimple, Ast.blur_dtSimple, blurLoc_spanLoc, blurLoc_spanLoc, he.loc, h.idLoc,
    Ast.blur_some, Ast.blur_some, he.ast, show p.blur = p'.blur from h]

theorem fromInit {p p' : PattId} {e e' : Expr} (h : Rel p p') (he : Rel e e') :
    Rel (Dtor.fromInit p e) (Dtor.fromInit p' e') := by
  rcases h.patt with ⟨i, i', rfl, rfl, hi⟩ | ⟨c, c', rfl, rfl, hi⟩
  · exact fromSimpleInit hi he
  · exact fromCompoundInit hi he

theorem fromInitNone {p p' : PattId} (h : Rel p p') :
    Rel (Dtor.fromInitNone p) (Dtor.fromInitNone p') := by
  rcases h.patt with ⟨i, i', rfl, rfl, hi⟩ | ⟨c, c', rfl, rfl, hi⟩
  · show some (Ast.blur (.dtSimple _ i _)) = some (Ast.blur (.dtSimple _ i' _))
    rw [Ast.blur_dtSimple, Ast.blur_dtSimple, hi.idLoc, show i.blur = i'.blur from hi]
  · rfl

theorem constFromInit {p p' : PattId} {e e' : Expr} (h : Rel p p') (he : Rel e e') :
    Rel (ConstDtor.fromInit p e) (ConstDtor.fromInit p' e') := by
  show Ast.blur (.constDtor _ p _) = Ast.blur (.constDtor _ p' _)
  rw [Ast.blur_constDtor, Ast.blur_constDtor, blurLoc_spanLoc, blurLoc_spanLoc, he.loc, h.loc,
    he.ast, h.ast]

end Rel

end Esprit
