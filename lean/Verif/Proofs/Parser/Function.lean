import Verif.Proofs.Parser.Rules
import Verif.Proofs.Cover

/-! Parameters, directives, bodies and functions. -/

set_option linter.unusedSectionVars false
set_option linter.unusedVariables false

namespace Esprit

open Lex ReaderSpec Grammar

theorem expressionContinuation_iff (t : Token) : t.expressionContinuation = true ↔ Continues t := by
  obtain ⟨l, nl, v⟩ := t
  cases v with
  | reserved w => cases w <;> simp [Token.expressionContinuation, Continues, continuers]
  | _ => simp [Token.expressionContinuation, Continues, continuers]

theorem followStatementList_iff (t : Token) :
    t.followStatementList = true ↔ t.value ∈ followsItems := by
  obtain ⟨l, nl, v⟩ := t
  cases v with
  | reserved w => cases w <;> simp [Token.followStatementList, followsItems]
  | _ => simp [Token.followStatementList, followsItems]

theorem firstBinding_iff (t : Token) : t.firstBinding = true ↔ StartsBinding t := by
  obtain ⟨l, nl, v⟩ := t
  cases v <;> simp [Token.firstBinding, StartsBinding]

namespace P

variable [Env] [LawfulEnv] {u : Bool} {S : Str} {n m na ni : Nat} {s s1 s2 s' : PState} {t : Token}
  {env : Scope} {α β : Type} {r : Rec}

/-! ### Parameters -/

theorem wp.patternPost (hp : Pre S env s) : wp u P.pattern s (Post S env .pattern 1 s) := by
  refine (wp.pattern hp).mono ?_
  rintro p s' ⟨i, t, rfl, hi, h⟩
  exact h.imp (by rintro a b rfl; exact .pattern hi)

theorem wp.formalParameters (hp : Pre S env s) :
    wp u P.formalParameters s (Post S env .params 1 s) := by
  unfold P.formalParameters
  refine wp.spanAst hp.inv ?_
  refine (wp.expect hp.inv rfl).bind ?_
  rintro t s1 ⟨hv, h1⟩
  have h1' := h1.one hv
  have hloop : wp u (P.loop paramsStep []) s1 (fun x s' => Tr S 0 s1 s' (fun i r =>
      Derives (Located S) env .paramItems i r (.params none (.ofList x.1) (.ofOption x.2)))) := by
    refine wp.loop (fun acc s2 => Tr S 0 s1 s2 (fun i r => ∀ rest ps rr,
      Derives (Located S) env .paramItems r rest (.params none ps rr) →
      Derives (Located S) env .paramItems i rest (.params none (.ofList (acc ++ ps.toList)) rr))) ?_ ?_
    · refine (Tr.refl h1.tr.inv).imp ?_
      rintro a b rfl rest ps rr h
      simpa [Ast.ofList_toList] using h
    · intro acc s2 h2
      unfold paramsStep
      refine (wp.peek h2.inv).bind fun t' s3 h3 => ?_
      have hp3 := h3.tr.pre (h2.pre (h1.tr.pre hp))
      have hmu3 := h3.tr.mu
      obtain ⟨tl, hla⟩ := h3.la
      split
      · refine (h2.trans h3.tr).mono (Nat.zero_le _) ?_
        rintro a b ⟨_, hr, rfl, _⟩
        have h := hr _ .nil .none .paramsNil
        simp only [Ast.toList_nil, Ast.toList_cons, List.append_nil] at h
        exact h
      · rename_i hv'
        refine wp.bind (wp.span (R := fun x i r => ∃ t i1 p, i = t :: i1 ∧ t.value = .ellipsis ∧
            x = .restPatt none p ∧ Derives (Located S) env .pattern i1 r p) (n := 0) hp3.inv ?_) ?_
        · refine (wp.reread hp3.inv hla hv' rfl).bind ?_
          rintro _ s4 ⟨rfl, h4⟩
          refine (wp.patternPost (h4.tr.pre hp3)).bind fun p s5 h5 => ?_
          refine (h4.zero.trans h5).mono (Nat.zero_le _) ?_
          rintro a b ⟨_, rfl, h⟩
          exact ⟨_, _, p, rfl, hv', rfl, h⟩
        · rintro _ s5 ⟨x, l, rfl, -, h5⟩
          refine (h2.trans (h3.tr.trans h5)).mono (Nat.zero_le _) ?_
          rintro a b ⟨_, hr, _, ⟨rfl, _⟩, ⟨t, i1, p, rfl, ht, rfl, hd⟩, hl⟩
          have h := hr _ .nil _ (.paramsRest ht hd hl)
          simp only [Ast.toList_nil, Ast.toList_cons, List.append_nil] at h
          exact h
      · refine (wp.patternPost hp3).bind fun p s4 h4 => ?_
        refine (wp.matches h4.inv rfl).bind ?_
        have hmu4 := h4.mu
        rintro b s5 ⟨t5, ⟨rfl, hv5, h5⟩ | ⟨rfl, hv5, h5⟩⟩
        · have hmu5 := (h5.one hv5).mu
          refine ⟨(h2.trans (h3.tr.trans (h4.trans h5.zero))).mono (Nat.zero_le _) ?_, by omega⟩
          rintro a b ⟨_, hr, _, ⟨rfl, _⟩, _, hd, rfl⟩ rest ps rr hd'
          simpa using hr _ _ _ (.paramsCons hd hv5 hd')
        · refine (h2.trans (h3.tr.trans (h4.trans h5.tr))).mono (Nat.zero_le _) ?_
          rintro a b ⟨_, hr, _, ⟨rfl, _⟩, _, hd, rfl, _⟩
          have h := hr _ _ _ (.paramsLast hd)
          simp only [Ast.toList_nil, Ast.toList_cons, List.append_nil] at h
          exact h
  refine hloop.bind ?_
  rintro ⟨list, rest⟩ s2 h2
  refine (wp.expect h2.inv rfl).bind ?_
  rintro t3 s3 ⟨hv3, h3⟩
  refine (h1'.trans (h2.trans h3.zero)).mono (Nat.le_add_right ..) ?_
  rintro a b ⟨_, rfl, _, hd, rfl⟩ l hl
  exact .params hv hd hv3 hl

/-! ### Directives -/

theorem Dir.pragma_ne {lit : StringLiteral} (h : TokOk S t) (hv : t.value = .string lit)
    (l : Loc) (semi : Semi) : (Dir.mk l lit semi).pragma ≠ c!"use strict" ∧
      (Dir.mk l lit semi).pragma ≠ c!"use module" := by
  obtain ⟨x, hx, hq⟩ := h.string lit hv
  have : (Dir.mk l lit semi).pragma = x := by simp [Dir.pragma, hx]
  rw [this]
  constructor <;> (rintro rfl; revert hq; decide)

theorem wp.matchDirectiveOpt (hp : Pre S env s) (hla : s.la.length ≤ 1) :
    wp u P.matchDirectiveOpt s (fun d s' => match d with
      | some dir => s'.la.length ≤ 1 ∧ Tr S 1 s s' (fun i r => ∃ t i1, i = t :: i1 ∧ t.value = .string dir.string ∧
          (∃ t2 r, i1 = t2 :: r ∧ ¬ Continues t2) ∧ Term false i1 r dir.semi ∧
          Located S i r dir.location) ∧
          dir.pragma ≠ c!"use strict" ∧ dir.pragma ≠ c!"use module"
      | none => Tr S 0 s s' (fun i r => i = r ∧ ¬ StartsDirective i ∧
          ∀ t r lit, i = t :: r → t.value = .string lit → NoDivision r)) := by
  unfold P.matchDirectiveOpt
  refine wp.posn_bind ?_
  refine (wp.read hp.inv).bind fun t s1 h1 => ?_
  split
  · rename_i lit hv
    refine (wp.peekC h1.tr.inv).bind fun t2 s2 h2 => ?_
    obtain ⟨h2, hdiv, hclean⟩ := h2
    have hl1 := h1.la
    have hdiv := hdiv (List.length_eq_zero_iff.1 (by omega))
    have hlen := h2.len
    have hla1 := h1.la1 hp.inv
    refine wp.ite (fun hc => ?_) (fun hc => ?_)
    · refine wp.bind ((wp.endWithAutoSemi_la h2.tr.inv).and (wp.endWithAutoSemi ((h1.one hv).trans h2.tr) (fun _ _ hi _ => hi.near hp.inv)
        (Nat.le_trans h1.tr.off h2.tr.off))) ?_
      rintro dir s3 ⟨hl3, l, semi, rfl, -, h3⟩
      refine ⟨by omega, h3.mono (Nat.le_refl _) ?_, Dir.pragma_ne h1.tok hv _ _⟩
      rintro a b ⟨m, ⟨_, rfl, rfl, r, rfl⟩, ht, hl⟩
      refine ⟨t, _, rfl, hv, ⟨t2, r, rfl, ?_⟩, ht, hl⟩
      rw [← expressionContinuation_iff]
      simpa using hc
    · refine wp.bind (wp.unread (Q := fun _ s3 => s3 = s2.push t) (by omega) rfl) ?_
      rintro _ _ rfl
      refine (h1.unread h2.tr (fun _ _ h => h.1) (by omega) h2.ne (hclean ?_)).imp ?_
      · intro x hx
        simp [Token.expressionContinuation, hx] at hc
      rintro a b ⟨rfl, r, rfl, -, r', rfl⟩
      refine ⟨rfl, ?_, ?_⟩
      · rintro ⟨_, _, _, _, h, -, hn⟩
        cases h
        rw [← expressionContinuation_iff] at hn
        simp at hc
        exact hn hc
      · rintro _ _ _ h - t' r'' h'
        cases h
        cases h'
        exact hdiv
  · rename_i hv
    refine wp.bind (wp.unread (Q := fun _ s3 => s3 = s1.push t) (h1.la1 hp.inv) rfl) ?_
    rintro _ _ rfl
    refine (h1.back (h1.la1 hp.inv)).tr.imp ?_
    rintro a b ⟨rfl, r, rfl⟩
    refine ⟨rfl, ?_, ?_⟩
    · rintro ⟨_, _, _, s, h, hs, hn⟩
      cases h
      exact hv s hs
    · rintro _ _ s h hs
      cases h
      exact absurd hs (hv s)

theorem wp.bodyDirectives (hp : Pre S env s) (hla : s.la.length ≤ 1) :
    wp u P.bodyDirectives s (fun ds s' => Tr S 0 s s' (fun i r => ¬ StartsDirective r ∧
      ∀ (c : Cat) (nt : NT (.list c)) rest items, Derives (Located S) env nt r rest items →
      Derives (Located S) env (.prologue nt) i rest (.body none ds items))) := by
  unfold P.bodyDirectives
  refine wp.loop (fun acc s1 => s1.la.length ≤ 1 ∧ Tr S 0 s s1 (fun i r =>
      ∀ (c : Cat) (nt : NT (.list c)) rest ds items,
      Derives (Located S) env (.prologue nt) r rest (.body none ds items) →
      Derives (Located S) env (.prologue nt) i rest (.body none (acc ++ ds) items))) ?_ ?_
  · refine ⟨hla, (Tr.refl hp.inv).imp ?_⟩
    rintro a b rfl c nt rest ds items h
    exact h
  · rintro acc s1 ⟨hl1, h1⟩
    unfold directivesStep
    refine (wp.matchDirectiveOpt (h1.pre hp) hl1).bind ?_
    rintro (_ | dir) s2 h2
    · refine (h1.trans h2).imp ?_
      rintro a b ⟨_, hr, rfl, hn, hnd⟩
      refine ⟨hn, fun c nt rest items hd => ?_⟩
      simpa using hr c nt rest [] items (.prologueEnd hn hnd hd)
    · obtain ⟨hl2, h2, hn1, hn2⟩ := h2
      refine wp.get_bind ?_
      simp only [if_neg hn1, hn2, decide_false, Bool.false_and, Bool.false_eq_true, if_false]
      have := h2.mu
      refine ⟨⟨hl2, (h1.trans h2).mono (Nat.zero_le _) ?_⟩, by omega⟩
      rintro a b ⟨_, hr, t, i1, rfl, hv, hc, ht, hl⟩ c nt rest ds items hd
      simpa using hr c nt rest _ items (.directive hv hc ht hl hd)

/-! ### Bodies -/

theorem wp.statementList (hr : RecOk u S r na ni) (hp : Pre S env s) (hi : s.mu < ni) :
    wp u (P.statementList r) s (fun xs s' => Post S env .items 0 s (.ofList xs) s') := by
  unfold P.statementList
  refine wp.loop (fun acc s1 => Tr S 0 s s1 (fun i r => ∀ rest xs, Derives (Located S) env .items r rest xs →
      Derives (Located S) env .items i rest (.ofList (acc ++ xs.toList)))) ?_ ?_
  · refine (Tr.refl hp.inv).imp ?_
    rintro a b rfl rest xs h
    simpa [Ast.ofList_toList] using h
  · intro acc s1 h1
    unfold statementListStep
    refine (wp.peek h1.inv).bind fun t s2 h2 => ?_
    have hmu1 := h1.mu
    have hmu2 := h2.tr.mu
    refine wp.ite (fun hc => ?_) (fun hc => ?_)
    · refine (hr.item true s2 env (h2.tr.pre (h1.pre hp)) (by omega)).bind fun x s3 h3 => ?_
      have := h3.mu
      refine ⟨(h1.trans (h2.tr.trans h3)).mono (Nat.zero_le _) ?_, by omega⟩
      rintro a b ⟨_, hr, _, ⟨rfl, _⟩, hd⟩ rest xs hx
      simpa using hr _ _ (.itemsCons hd hx)
    · simp only [Bool.not_eq_true', Bool.not_eq_false, followStatementList_iff] at hc
      refine (h1.trans h2.tr).mono (Nat.zero_le _) ?_
      rintro a b ⟨_, hr, rfl, r, rfl⟩
      simpa using hr _ .nil (.itemsNil hc)

theorem wp.scriptBody (hr : RecOk u S r na ni) (hp : Pre S env s) (hi : s.mu < ni)
    (hla : s.la.length ≤ 1) :
    wp u (P.scriptBody r) s (fun b s' => Post S env (.body .items) 0 s b s' ∧
      ∀ sp, b.loc = some sp → sp.start.offset = s.off) := by
  unfold P.scriptBody
  refine (wp.span (R := fun b i r => ∃ ds items, b = .body none ds items ∧
    Derives (Located S) env (.prologue .items) i r b) (n := 0) hp.inv ?_).mono ?_
  · refine (wp.bodyDirectives hp hla).bind fun ds s1 h1 => ?_
    have := h1.mu
    refine (wp.statementList hr (h1.pre hp) (by omega)).bind fun xs s2 h2 => ?_
    refine (h1.trans h2).mono (Nat.zero_le _) ?_
    rintro a b ⟨_, ⟨hn, h1⟩, h2⟩
    exact ⟨_, _, rfl, h1 _ _ _ _ h2⟩
  · rintro b s' ⟨a, l, rfl, hl, h⟩
    cases a with
    | body l0 ds items =>
      refine ⟨h.imp ?_, hl⟩
      rintro i r ⟨⟨_, _, ha, hd⟩, hl⟩
      cases ha
      exact .body hd hl

theorem wp.functionBodyC (hr : RecOk u S r na ni) {ps : List PattId} (hp : Pre S env s)
    (hi : s.mu ≤ ni) :
    wp u (P.functionBody r ps) s (fun b s' =>
      Post S env.functionBody .functionBody 1 s b s' ∧ Clean s') := by
  unfold P.functionBody
  refine wp.get_bind (wp.modify_bind ?_)
  generalize hs1 : ({ s with ctx := s.ctx.newFunction } : PState) = s1
  have hl : s1.lexer = s.lexer := by rw [← hs1]
  have hmu : s1.mu = s.mu := by simp [PState.mu, hl]
  have hp1 : Pre S env.functionBody s1 := by
    refine ⟨hp.inv.congr hl, ?_⟩
    subst hs1
    refine ⟨hp.env.strict, hp.env.module, rfl, rfl, rfl, rfl, ?_, hp.env.plain⟩
    intro n t h
    cases h
  refine (wp.expect hp1.inv rfl).bind ?_
  rintro t s2 ⟨hv, h2⟩
  have h2' := h2.one hv
  have := h2'.mu
  refine (wp.scriptBody hr (h2.tr.pre hp1) (by omega) (h2.la1 hp1.inv)).bind ?_
  rintro b s3 ⟨h3, hb⟩
  refine wp.strictCheckPure.bind ?_
  rintro _ s4 ⟨h4, -⟩
  have h4' := h4.tr h3.inv
  refine (wp.expect h4'.inv rfl).bind ?_
  rintro t5 s5 ⟨hv5, h5⟩
  refine wp.modify_bind (wp.pure ⟨?_, h5.clean.congr rfl⟩)
  have htr := h2'.trans (h3.trans (h4'.trans h5.zero))
  have hk := htr.frame
  refine ((htr.mono (m := 1) (Nat.le_add_right ..) ?_).inside hl rfl ?_)
  · rintro a b ⟨_, rfl, _, hd, _, rfl, rfl⟩
    refine .functionBody hv hd hv5 ?_
    intro sp hsp
    rw [hb sp hsp]
    exact h2.end
  · subst hs1
    exact ⟨hk.goal, hk.validate, rfl, fun _ _ h => h⟩

theorem wp.functionBody (hr : RecOk u S r na ni) {ps : List PattId} (hp : Pre S env s)
    (hi : s.mu ≤ ni) :
    wp u (P.functionBody r ps) s (Post S env.functionBody .functionBody 1 s) :=
  (wp.functionBodyC hr hp hi).mono fun _ _ h => h.1

theorem wp.function (hr : RecOk u S r na ni) {c : Cat} {nt : NT c} {getId : P (Ast c)}
    (hget : ∀ s, Pre S env s → wp u getId s (Post S env nt 0 s)) (hp : Pre S env s)
    {tl : List Token} (hla : s.la = t :: tl) (hv : t.value = .reserved .function)
    (hi : s.mu ≤ ni) :
    wp u (P.function r getId) s (Post S env (.func nt) 1 s) := by
  unfold P.function
  refine (wp.span (n := 1) (R := fun f i r => (∀ t ∈ i.drop 2, s.off ≤ t.location.start.offset) ∧
    ∀ l, Located S i r l → (∀ sp, l = some sp → sp.start.offset = s.off) →
      Derives (Located S) env (.func nt) i r (f.setLoc l)) hp.inv ?_).mono ?_
  · refine (wp.reread hp.inv hla hv rfl).bind ?_
    rintro _ s1 ⟨rfl, h1⟩
    have h1' := h1.one hv
    have := h1'.mu
    refine (wp.matches h1.tr.inv rfl).bind ?_
    have key : ∀ (gen : Bool) {n : Nat} {R : List Token → List Token → Prop} (s2 : PState),
        Tr S n s1 s2 R →
        (∀ i j k r x ps b l, R i j → Derives (Located S) env nt j k x → (∃ k', Derives (Located S) env .params k k' ps ∧
          Derives (Located S) env.functionBody .functionBody k' r b) → Located S (t :: i) r l →
          (∀ sp, l = some sp → sp.start.offset = s.off) →
          (∀ t' ∈ i.tail, s.off ≤ t'.location.start.offset) →
          Derives (Located S) env (.func nt) (t :: i) r (.func l x ps b gen)) →
        wp u (getId >>= fun i => P.formalParameters >>= fun params =>
          P.functionBody r (paramList params) >>= fun body =>
          Pure.pure (Ast.func none i params body gen)) s2 (fun f s' => Tr S 1 s s' (fun i r =>
          (∀ t ∈ i.drop 2, s.off ≤ t.location.start.offset) ∧
    ∀ l, Located S i r l → (∀ sp, l = some sp → sp.start.offset = s.off) →
      Derives (Located S) env (.func nt) i r (f.setLoc l))) := by
      intro gen n R s2 h2 hd
      have hp2 := h2.pre (h1.tr.pre hp)
      have := h2.mu
      refine (hget s2 hp2).bind fun x s3 h3 => ?_
      have := h3.mu
      refine (wp.formalParameters (h3.pre hp2)).bind fun ps s4 h4 => ?_
      have := h4.mu
      refine (wp.functionBody hr (h4.pre (h3.pre hp2)) (by omega)).bind fun b s5 h5 => ?_
      refine ((h1'.trans (h2.trans (h3.trans (h4.trans h5)))).starts hp.inv).mono
        (Nat.le_add_right ..) ?_
      rintro a r ⟨⟨_, rfl, _, hR, _, hx, k, hps, hb⟩, hst⟩
      exact ⟨hst, fun l hl hs => hd _ _ _ _ _ _ _ _ hR hx ⟨k, hps, hb⟩ hl hs (by simpa using hst)⟩
    rintro b s2 ⟨t2, ⟨rfl, hv2, h2⟩ | ⟨rfl, hv2, h2⟩⟩
    · refine key true s2 h2.tr ?_
      rintro i j k r x ps b l rfl hx ⟨k', hps, hb⟩ hl hs hst
      refine .funcGenerator hv hv2 hx hps hb hl ?_
      intro sp hsp t' ht'
      rw [hs sp hsp]
      exact hst t' (by simpa using ht')
    · refine key false s2 h2.tr ?_
      rintro i j k r x ps b l ⟨rfl, -⟩ hx ⟨k', hps, hb⟩ hl hs hst
      refine .func hv hx hps hb hl ?_
      intro sp hsp t' ht'
      rw [hs sp hsp]
      exact hst t' ht'
  · rintro _ s' ⟨f, l, rfl, hl, h⟩
    exact h.imp fun i r h => h.1.2 l h.2 hl

theorem wp.functionC (hr : RecOk u S r na ni) {c : Cat} {nt : NT c} {getId : P (Ast c)}
    (hget : ∀ s, Pre S env s → wp u getId s (Post S env nt 0 s)) (hp : Pre S env s)
    {tl : List Token} (hla : s.la = t :: tl) (hv : t.value = .reserved .function)
    (hi : s.mu ≤ ni) :
    wp u (P.function r getId) s (fun f s' => Post S env (.func nt) 1 s f s' ∧ Clean s') := by
  refine (wp.function hr hget hp hla hv hi).and ?_
  unfold P.function
  refine wp.spanKeep ?_
  refine (wp.reread hp.inv hla hv rfl).bind ?_
  rintro _ s1 ⟨rfl, h1⟩
  have := h1.tr.mu
  refine wp.bind (Q := fun _ s2 => Tr S 0 s1 s2 (fun _ _ => True)) ?_ fun gen s2 h2 => ?_
  · refine (wp.matches h1.tr.inv rfl).mono ?_
    rintro b s2 ⟨t2, ⟨-, -, h2⟩ | ⟨-, -, h2⟩⟩
    · exact h2.zero.imp fun _ _ _ => trivial
    · exact h2.tr.imp fun _ _ _ => trivial
  have hp2 := h2.pre (h1.tr.pre hp)
  have := h2.mu
  refine (hget s2 hp2).bind fun x s3 h3 => ?_
  have := h3.mu
  refine (wp.formalParameters (h3.pre hp2)).bind fun ps s4 h4 => ?_
  have := h4.mu
  exact (wp.functionBodyC hr (h4.pre (h3.pre hp2)) (by omega)).bind fun b s5 h5 => h5.2

theorem wp.functionDeclaration (hr : RecOk u S r na ni) (hp : Pre S env s)
    {tl : List Token} (hla : s.la = t :: tl) (hv : t.value = .reserved .function)
    (hi : s.mu ≤ ni) :
    wp u (P.functionDeclaration r) s (Post S env .decl 1 s) := by
  unfold P.functionDeclaration
  refine wp.spanAst hp.inv ?_
  refine (wp.function hr (nt := .name) ?_ hp hla hv hi).bind fun f s1 h1 => ?_
  · intro s hs
    refine (wp.id hs).bind ?_
    rintro i s' ⟨t, hi, h, -⟩
    exact h.mono (Nat.zero_le _) (by rintro a b rfl; exact .name hi)
  · cases f with
    | func l0 x ps b gen =>
      refine h1.imp ?_
      intro i r hd l hl
      exact .declFun hd hl

end P

end Esprit
