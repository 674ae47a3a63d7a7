import Verif.Proofs.Parser.Expr
import Verif.Proofs.Parser.Buffer

/-! Object literals, primary expressions, accessors, calls and `new`. -/

set_option linter.unusedSectionVars false
set_option linter.unusedVariables false

namespace Esprit

open Lex ReaderSpec Grammar

namespace P

variable [Env] [LawfulEnv] {S : Str} {env : Scope} {u : Bool} {n m na ni : Nat}
  {s s1 s2 s' : PState} {t : Token} {α β : Type} {r : Rec}

theorem wp.objectProperty (hr : RecOk u S r na ni) (hp : Pre S env s) (ha : s.mu ≤ na)
    (hi : s.mu ≤ ni) : wp u (P.objectProperty r) s (Post S env .prop 1 s) := by
  unfold P.objectProperty
  refine (wp.read hp.inv).bind fun first s1 h1 => ?_
  have hp1 := h1.tr.pre hp
  have hmu1 := h1.tr.mu
  have hla1 := h1.la1 hp.inv
  have more : ∀ {t : Token} {k : PropKey} {s2 : PState} {R : List Token → List Token → Prop},
      PropName t k → Tr S 1 s s2 R → (∀ i r, R i r → i = t :: r ∧ WordOk t r) →
      wp u (P.morePropInit r k) s2 (Post S env .prop 1 s) := by
    intro t k s2 R hk h2 hR
    have := h2.mu
    refine (wp.morePropInit hr hk (h2.pre hp) (by omega) (by omega)).mono fun p s3 h3 => ?_
    refine (h2.trans h3).imp ?_
    rintro a b ⟨_, hr, hd⟩
    obtain ⟨rfl, hw⟩ := hR _ _ hr
    exact hd hw
  have body : ∀ {n : Nat} {t : Token} {s2 : PState} {R : List Token → List Token → Prop}
      {ps : List PattId}, Tr S n s s2 R → wp u (P.functionBody r ps) s2 (fun b s' =>
      Tr S n s s' (fun i r => ∃ m, R i m ∧ Derives (Located S) env.functionBody .functionBody m r b)) := by
    intro n t s2 R ps h2
    have := h2.mu
    refine (wp.functionBody hr (h2.pre hp) (by omega)).mono fun b s3 h3 => ?_
    exact (h2.trans h3).mono (Nat.le_add_right ..) fun _ _ h => h
  split
  · rename_i hv
    have h1' := h1.one hv
    refine (wp.propertyKeyOpt hp1.inv).bind ?_
    rintro (_ | k) s2 h2
    · obtain ⟨t2, h2, -⟩ := h2
      refine more (t := first) (.id hv) (h1'.trans h2.tr) ?_
      rintro a b ⟨_, rfl, rfl, _⟩
      refine ⟨rfl, fun w hw => ?_⟩
      rw [hv] at hw; cases hw
    · obtain ⟨t2, hk, h2⟩ := h2
      refine (wp.expect h2.inv rfl).bind ?_
      rintro t3 s3 ⟨hv3, h3⟩
      refine (wp.expect h3.tr.inv rfl).bind ?_
      rintro t4 s4 ⟨hv4, h4⟩
      refine (body (t := t4) (h1'.trans (h2.trans (h3.zero.trans h4.zero)))).bind fun b s5 h5 => ?_
      refine h5.mono (Nat.le_add_right ..) ?_
      rintro a b ⟨_, ⟨_, rfl, _, rfl, _, rfl, rfl⟩, hb⟩
      exact .propGet hv hk hv3 hv4 hb
  · rename_i hv
    have h1' := h1.one hv
    refine (wp.propertyKeyOpt hp1.inv).bind ?_
    rintro (_ | k) s2 h2
    · obtain ⟨t2, h2, -⟩ := h2
      refine more (t := first) (.id hv) (h1'.trans h2.tr) ?_
      rintro a b ⟨_, rfl, rfl, _⟩
      refine ⟨rfl, fun w hw => ?_⟩
      rw [hv] at hw; cases hw
    · obtain ⟨t2, hk, h2⟩ := h2
      refine (wp.expect h2.inv rfl).bind ?_
      rintro t3 s3 ⟨hv3, h3⟩
      refine (wp.patternPost (h3.tr.pre (h2.pre hp1))).bind fun p s4 h4 => ?_
      refine (wp.expect h4.inv rfl).bind ?_
      rintro t5 s5 ⟨hv5, h5⟩
      refine (body (t := t5) (h1'.trans (h2.trans (h3.zero.trans (h4.trans h5.zero))))).bind
        fun b s6 h6 => ?_
      refine h6.mono (Nat.le_add_right ..) ?_
      rintro a b ⟨_, ⟨_, rfl, _, rfl, _, rfl, _, hd, rfl⟩, hb⟩
      exact .propSet hv hk hv3 hd hv5 hb
  · rename_i hv
    have h1' := h1.one hv
    refine (wp.propertyKey hp1.inv).bind ?_
    rintro k s2 ⟨t2, hk, h2⟩
    refine (wp.formalParameters (h2.pre hp1)).bind fun ps s3 h3 => ?_
    refine (body (t := t2) (h1'.trans (h2.trans h3))).bind fun b s4 h4 => ?_
    refine h4.mono (Nat.le_add_right ..) ?_
    rintro a b ⟨_, ⟨_, rfl, _, rfl, hps⟩, hb⟩
    exact .propGenerator hv hk hps hb
  · rename_i w hv
    refine (wp.peekC hp1.inv).bind ?_
    rintro t2 s2 ⟨h2, -, hclean⟩
    have hlen := h2.len
    have key : t2.value ≠ .comma → t2.value ≠ .rBrace → wp u (do
        P.unread first
        let key ← P.propertyKey
        P.morePropInit r key) s2 (Post S env .prop 1 s) := by
      intro hn1 hn2
      by_cases hre : ∃ x, t2.value = .regExp x
      · obtain ⟨tl, hl2⟩ := h2.la
        have hl : tl = [] := by
          have := congrArg List.length hl2
          simp only [List.length_cons] at this
          exact List.length_eq_zero_iff.1 (by omega)
        exact bf.wordProperty hl2 hl hv hre
      refine wp.bind (wp.unread (Q := fun _ s3 => s3 = s2.push first) (by omega) rfl) ?_
      rintro _ _ rfl
      have h3 := h1.unread h2.tr (fun _ _ h => h.1) (by omega) h2.ne
        (hclean fun x hx => hre ⟨x, hx⟩)
      refine (wp.propertyKey h3.inv).bind ?_
      rintro k s4 ⟨t4, hk, h4⟩
      refine more hk ((h3.trans h4).mono (Nat.le_add_left ..) fun _ _ h => h) ?_
      rintro a b ⟨_, ⟨rfl, r, rfl, -, r', rfl⟩, hc⟩
      cases hc
      refine ⟨rfl, fun w hw => ?_⟩
      rintro (⟨_, _, h, hc⟩ | ⟨_, _, h, hc⟩) <;> cases h
      · exact hn1 hc
      · exact hn2 hc
    split
    · trivial
    · trivial
    · rename_i hn1 hn2
      exact key hn1 hn2
  · rename_i hv1 hv2 hv3 hv4
    refine wp.bind (wp.unread (Q := fun _ s3 => s3 = s1.push first) (by omega) rfl) ?_
    rintro _ _ rfl
    have h3 := h1.back hla1
    refine (wp.propertyKey h3.tr.inv).bind ?_
    rintro k s4 ⟨t4, hk, h4⟩
    refine more hk ((h3.tr.trans h4).mono (Nat.le_add_left ..) fun _ _ h => h) ?_
    rintro a b ⟨_, ⟨rfl, r, rfl⟩, hc⟩
    cases hc
    exact ⟨rfl, fun w hw => absurd hw (hv4 w)⟩

theorem wp.objectLiteral (hr : RecOk u S r na ni) (hp : Pre S env s) (ha : s.mu ≤ na)
    (hi : s.mu ≤ ni) :
    wp u (P.objectLiteral r t) s (fun e s' => Tr S 0 s s' (fun i r => ∃ ps t2,
      Derives (Located S) env .props i (t2 :: r) ps ∧ t2.value = .rBrace ∧
      e = .eObj (spanLoc (some t.location) (some t2.location)) ps) ∧ Clean s') := by
  unfold P.objectLiteral
  have hloop : wp u (P.loop (objectStep r) []) s (fun es s' => Tr S 0 s s' (fun i r =>
      Derives (Located S) env .props i r (.ofList es))) := by
    refine wp.loop (fun acc s2 => Tr S 0 s s2 (fun i r => ∀ rest xs,
      Derives (Located S) env .props r rest xs →
      Derives (Located S) env .props i rest (.ofList (acc ++ xs.toList)))) ?_ ?_
    · refine (Tr.refl hp.inv).imp ?_
      rintro a b rfl rest xs h
      simpa [Ast.ofList_toList] using h
    · intro acc s2 h2
      have hmu2 := h2.mu
      unfold objectStep
      refine (wp.peek h2.inv).bind fun t' s3 h3 => ?_
      have hp3 := h3.tr.pre (h2.pre hp)
      have hmu3 := h3.tr.mu
      rw [eqv_plain rfl]
      refine wp.ite (fun hc => ?_) (fun hc => ?_)
      · refine (h2.trans h3.tr).mono (Nat.zero_le _) ?_
        rintro a b ⟨_, hr, rfl, _⟩
        simpa using hr _ .nil .propsNil
      · refine (wp.objectProperty hr hp3 (by omega) (by omega)).bind fun p s4 h4 => ?_
        refine (wp.matches h4.inv rfl).bind ?_
        have hmu4 := h4.mu
        rintro b s5 ⟨t5, ⟨rfl, hv5, h5⟩ | ⟨rfl, hv5, h5⟩⟩
        · have hmu5 := (h5.one hv5).mu
          refine ⟨(h2.trans (h3.tr.trans (h4.trans h5.zero))).mono (Nat.zero_le _) ?_, by omega⟩
          rintro a b ⟨_, hr, _, ⟨rfl, _⟩, _, hy, rfl⟩ rest xs hd
          simpa using hr _ _ (.propsCons hy hv5 hd)
        · refine (h2.trans (h3.tr.trans (h4.trans h5.tr))).mono (Nat.zero_le _) ?_
          rintro a b ⟨_, hr, _, ⟨rfl, _⟩, _, hy, rfl, r, rfl⟩
          simpa using hr _ _ (.propsLast hy)
  refine hloop.bind fun es s2 h2 => ?_
  refine (wp.expect h2.inv rfl).bind ?_
  rintro t3 s3 ⟨hv3, h3⟩
  refine ⟨(h2.trans h3.zero).mono (Nat.le_refl _) ?_, h3.clean⟩
  rintro a b ⟨_, hd, rfl⟩
  exact ⟨_, _, hd, hv3, rfl⟩

theorem wp.primaryExpression (hr : RecOk u S r na ni) (hp : Pre S env s) (ha : s.mu ≤ na)
    (hi : s.mu ≤ ni) : wp u (P.primaryExpression r) s (fun e s' =>
      Post S env .primary 1 s e s' ∧ Clean s') := by
  unfold P.primaryExpression
  refine (wp.read hp.inv).bind fun t s1 h1 => ?_
  have hp1 := h1.tr.pre hp
  have hla1 := h1.la1 hp.inv
  split
  · rename_i hv
    refine (wp.newId hp1).bind ?_
    rintro _ s2 ⟨rfl, hid, h2⟩
    refine ⟨((h1.one hv).trans (h2.tr hp1.inv)).mono (Nat.le_refl _) ?_, ?_⟩
    rotate_left
    · intro t' ht'
      rw [h2.la] at ht'
      exact h1.clean t' ht'
    rintro a b ⟨_, rfl, rfl⟩
    exact .identifier (.mk hv hid)
  · rename_i hv; exact ⟨(h1.one hv).imp (by rintro a b rfl; exact .kNull hv), h1.clean⟩
  · rename_i hv; exact ⟨(h1.one hv).imp (by rintro a b rfl; exact .kThis hv), h1.clean⟩
  · rename_i hv; exact ⟨(h1.one hv).imp (by rintro a b rfl; exact .kTrue hv), h1.clean⟩
  · rename_i hv; exact ⟨(h1.one hv).imp (by rintro a b rfl; exact .kFalse hv), h1.clean⟩
  · rename_i hv; exact ⟨(h1.one hv).imp (by rintro a b rfl; exact .number hv), h1.clean⟩
  · rename_i hv; exact ⟨(h1.one hv).imp (by rintro a b rfl; exact .string hv), h1.clean⟩
  · rename_i hv; exact ⟨(h1.one hv).imp (by rintro a b rfl; exact .regExp hv), h1.clean⟩
  · rename_i hv
    have h1' := h1.one hv
    have := h1'.mu
    refine (wp.arrayLiteral hr hp1 (by omega)).mono fun e s2 h2 => ?_
    refine ⟨(h1'.trans h2.1).mono (Nat.le_refl _) ?_, h2.2⟩
    rintro a b ⟨_, rfl, es, t2, hd, hv2, rfl⟩
    exact .array hv hd hv2
  · rename_i hv
    have h1' := h1.one hv
    have := h1'.mu
    refine (wp.objectLiteral hr hp1 (by omega) (by omega)).mono fun e s2 h2 => ?_
    refine ⟨(h1'.trans h2.1).mono (Nat.le_refl _) ?_, h2.2⟩
    rintro a b ⟨_, rfl, es, t2, hd, hv2, rfl⟩
    exact .object hv hd hv2
  · rename_i hv
    refine wp.bind (wp.unread (Q := fun _ s3 => s3 = s1.push t) hla1 rfl) ?_
    rintro _ _ rfl
    have h2 := h1.back hla1
    have := h2.tr.mu
    refine (wp.functionC hr (nt := .nameOpt) ?_ (h2.tr.pre hp) (t := t) rfl hv (by omega)).bind
      fun f s3 h3 => ?_
    · intro s hs
      unfold P.idOpt
      have hid : wp u (do
          let next ← P.read
          match next.value with
          | .identifier name => do
            let i ← P.newId true name next.location
            Pure.pure (some i)
          | _ => do
            P.unread next
            Pure.pure none) s (fun o s' => Post S env .nameOpt 0 s (.ofOption (o.map .ident)) s') := by
        refine (wp.read hs.inv).bind fun t' s4 h4 => ?_
        split
        · rename_i hv
          refine (wp.newId (h4.tr.pre hs)).bind ?_
          rintro _ s5 ⟨rfl, hid, h5⟩
          refine (h4.tr.trans (h5.tr h4.tr.inv)).mono (Nat.zero_le _) ?_
          rintro a b ⟨_, rfl, rfl⟩
          exact .nameSome (.name (.mk hv hid))
        · refine wp.bind (wp.unread (Q := fun _ s3 => s3 = s4.push t') (h4.la1 hs.inv) rfl) ?_
          rintro _ _ rfl
          refine (h4.back (h4.la1 hs.inv)).tr.imp ?_
          rintro a b ⟨rfl, _⟩
          exact .nameNone
      exact hid.bind fun o s' h => h
    · refine ⟨(h2.tr.trans h3.1).mono (Nat.le_add_left ..) ?_, h3.2⟩
      rintro a b ⟨_, ⟨rfl, _⟩, hd⟩
      exact .function hd
  · rename_i hv
    refine wp.bind (wp.unread (Q := fun _ s3 => s3 = s1.push t) hla1 rfl) ?_
    rintro _ _ rfl
    have h2 := h1.back hla1
    have := h2.tr.mu
    refine (wp.parenExpressionC hr (h2.tr.pre hp) (by omega)).mono fun e s3 h3 => ?_
    refine ⟨(h2.tr.trans h3.1).mono (Nat.le_add_left ..) ?_, h3.2⟩
    rintro a b ⟨_, ⟨rfl, _⟩, t, i1, t2, rfl, hv, hd, hv2⟩
    exact .paren hv hd hv2
  · trivial

theorem wp.memberBaseExpression (hr : RecOk u S r na ni) (hp : Pre S env s) (ha : s.mu ≤ na)
    (hi : s.mu ≤ ni) (calls : Bool) :
    wp u (P.memberBaseExpression r) s (fun e s' =>
      Post S env (.lhs calls) 1 s e s' ∧ Clean s') := by
  unfold P.memberBaseExpression
  refine (wp.matchesToken hp.inv rfl).bind ?_
  rintro _ s1 ⟨t, ⟨rfl, hv, h1⟩ | ⟨rfl, hv, h1⟩⟩
  · refine (wp.expect h1.tr.inv rfl).bind ?_
    rintro t2 s2 ⟨hv2, h2⟩
    refine (wp.expect h2.tr.inv rfl).bind ?_
    rintro t3 s3 ⟨hv3, h3⟩
    refine ⟨((h1.one hv).trans (h2.zero.trans h3.zero)).mono (Nat.le_add_right ..) ?_, h3.clean⟩
    rintro a b ⟨_, rfl, _, rfl, rfl⟩
    exact .newTarget hv hv2 hv3
  · have := h1.tr.mu
    refine (wp.primaryExpression hr (h1.tr.pre hp) (by omega) (by omega)).mono fun e s2 h2 => ?_
    refine ⟨(h1.tr.trans h2.1).mono (Nat.le_add_left ..) ?_, h2.2⟩
    rintro a b ⟨_, ⟨rfl, _⟩, hd⟩
    exact .lhsPrimary hd

/-! ### Arguments and accessors -/

/-- A list of arguments in parentheses. -/
def ArgsOf (S : Str) (env : Scope) (a : Arguments) (i r : List Token) : Prop :=
  ∃ t i1, i = t :: i1 ∧ t.value = .lParen ∧
    Derives (Located S) (env.withIn true) .argList i1 (a.end :: r) (.ofList a.args) ∧ a.end.value = .rParen

theorem wp.arguments (hr : RecOk u S r na ni) (hp : Pre S env s) (ha : s.mu ≤ na) :
    wp u (P.arguments r) s (fun a s' => Tr S 1 s s' (ArgsOf S env a) ∧ Clean s') := by
  unfold P.arguments
  refine (wp.allowInC (c := True) hp fun s1 hmu hla hp1 => ?_).mono fun _ _ h => ⟨h.1, h.2 trivial⟩
  refine (wp.expect hp1.inv rfl).bind ?_
  rintro t2 s2 ⟨hv2, h2⟩
  have h2' := h2.one hv2
  have hmu2 := h2'.mu
  have hp2 := h2.tr.pre hp1
  refine (wp.peek hp2.inv).bind fun t3 s3 h3 => ?_
  have hmu3 := h3.tr.mu
  have hp3 := h3.tr.pre hp2
  have tail : ∀ (xs : List (Ast .item)) (s4 : PState), Tr S 0 s3 s4 (fun i r =>
      Derives (Located S) (env.withIn true) .argList i r (.ofList xs)) → wp u (do
        let t ← P.expect .rParen
        Pure.pure { args := xs, «end» := t }) s4 (fun a s' => Tr S 1 s1 s' (ArgsOf S env a) ∧ (True → Clean s')) := by
    intro xs s4 h4
    refine (wp.expect h4.inv rfl).bind ?_
    rintro t5 s5 ⟨hv5, h5⟩
    refine ⟨(h2'.trans (h3.tr.trans (h4.trans h5.zero))).mono (Nat.le_add_right ..) ?_,
      fun _ => h5.clean⟩
    rintro a b ⟨_, rfl, _, ⟨rfl, _⟩, _, hd, rfl⟩
    exact ⟨_, _, rfl, hv2, hd, hv5⟩
  refine wp.ite (fun _ => ?_) (fun _ => ?_)
  · have hl : wp u (P.loop (argumentsStep r) []) s3 (fun xs s' => Tr S 0 s3 s' (fun i r =>
        Derives (Located S) (env.withIn true) .args i r (.ofList xs))) := by
      refine wp.loop (fun acc s4 => Tr S 0 s3 s4 (fun i r => ∀ rest xs,
        Derives (Located S) (env.withIn true) .args r rest xs →
        Derives (Located S) (env.withIn true) .args i rest (.ofList (acc ++ xs.toList)))) ?_ ?_
      · refine (Tr.refl hp3.inv).imp ?_
        rintro a b rfl rest xs h
        simpa [Ast.ofList_toList] using h
      · intro acc s4 h4
        have hmu4 := h4.mu
        unfold argumentsStep
        refine (wp.exprListItem hr (h4.pre hp3) (by omega)).bind fun x s5 h5 => ?_
        have hmu5 := h5.mu
        refine (wp.matches h5.inv rfl).bind ?_
        rintro b s6 ⟨t6, ⟨rfl, hv6, h6⟩ | ⟨rfl, hv6, h6⟩⟩
        · have hmu6 := (h6.one hv6).mu
          refine ⟨(h4.trans (h5.trans h6.zero)).mono (Nat.zero_le _) ?_, by omega⟩
          rintro a b ⟨_, hr, _, hy, rfl⟩ rest xs hd
          simpa using hr _ _ (.argsCons hy hv6 hd)
        · refine (h4.trans (h5.trans h6.tr)).mono (Nat.zero_le _) ?_
          rintro a b ⟨_, hr, _, hy, rfl, r, rfl⟩
          simpa using hr _ _ (.argsLast hy)
    exact hl.bind fun xs s4 h => tail xs s4 (h.imp fun _ _ h => .argList h)
  · exact wp.pure_bind (tail [] s3 ((Tr.refl hp3.inv).imp (by rintro a b rfl; exact .argListNil)))

/-- `d` continues an expression. -/
def DerefOf (S : Str) (env : Scope) (d : Deref) (i r : List Token) : Prop :=
  ∀ calls i0 e, Derives (Located S) env (.lhs calls) i0 i e → Derives (Located S) env (.lhs calls) i0 r (d.appendTo e)

theorem wp.derefBrack (hr : RecOk u S r na ni) (hp : Pre S env s) (ha : s.mu ≤ na)
    {tl : List Token} (hla : s.la = t :: tl) (hv : t.value = .lBrack) :
    wp u (P.derefBrack r) s (fun d s' => Tr S 1 s s' (DerefOf S env d) ∧ Clean s') := by
  unfold P.derefBrack
  refine (wp.reread hp.inv hla hv rfl).bind ?_
  rintro _ s1 ⟨rfl, h1⟩
  have h1' := h1.one hv
  have := h1'.mu
  refine wp.bind (wp.allowIn (n := 1) (b := true)
    (R := fun e i r => Derives (Located S) (env.withIn true) .expr i r e)
    (h1.tr.pre hp) fun s2 hmu hla hp2 => wp.expression hr hp2 (by omega)) fun e s2 h2 => ?_
  refine (wp.expect h2.inv rfl).bind ?_
  rintro t3 s3 ⟨hv3, h3⟩
  refine ⟨(h1'.trans (h2.trans h3.zero)).mono (Nat.le_add_right ..) ?_, h3.clean⟩
  rintro a b ⟨_, rfl, _, hd, rfl⟩ calls i0 e he
  exact .brack he hv hd hv3

theorem wp.derefDot (hp : Pre S env s)
    {tl : List Token} (hla : s.la = t :: tl) (hv : t.value = .dot) :
    wp u P.derefDot s (fun d s' => Tr S 1 s s' (DerefOf S env d) ∧ Clean s') := by
  unfold P.derefDot
  refine (wp.reread hp.inv hla hv rfl).bind ?_
  rintro _ s1 ⟨rfl, h1⟩
  have h1' := h1.one hv
  have hid : wp u P.idName s1 (fun k s' => ∃ t, MemberName t k ∧ Tr S 0 s1 s' (Cons t) ∧ Clean s') := by
    unfold P.idName
    refine (wp.read h1.tr.inv).bind fun t2 s2 h2 => ?_
    split
    · exact ⟨t2, .id ‹_›, h2.zero, h2.clean⟩
    · exact ⟨t2, .word ‹_›, h2.zero, h2.clean⟩
    · trivial
  refine hid.bind ?_
  rintro k s2 ⟨t2, hk, h2, hc⟩
  refine ⟨(h1'.trans h2).mono (Nat.le_refl _) ?_, hc⟩
  rintro a b ⟨_, rfl, rfl⟩ calls i0 e he
  exact .dot he hv hk

theorem wp.derefOpt (hr : RecOk u S r na ni) (hp : Pre S env s) (ha : s.mu ≤ na)
    (hc : Clean s) :
    wp u (P.derefOpt r) s (fun d s' => Clean s' ∧ match d with
      | some d => Tr S 1 s s' (DerefOf S env d)
      | none => Tr S 0 s s' (fun i r => i = r ∧ NextNotIn r [.dot, .lBrack])) := by
  unfold P.derefOpt
  refine (wp.peekOpC hp.inv).bind fun t s1 h1 => ?_
  obtain ⟨h1, hx⟩ := h1
  have hp1 := h1.tr.pre hp
  have := h1.tr.mu
  obtain ⟨tl, hla⟩ := h1.la
  have fin : ∀ d s2, Tr S 1 s1 s2 (DerefOf S env d) → Tr S 1 s s2 (DerefOf S env d) := by
    intro d s2 h2
    refine (h1.tr.trans h2).mono (Nat.le_add_left ..) ?_
    rintro a b ⟨_, ⟨rfl, _⟩, h⟩
    exact h
  split
  · exact (wp.derefBrack hr hp1 (by omega) hla ‹_›).bind fun d s2 h2 => ⟨h2.2, fin d s2 h2.1⟩
  · exact (wp.derefDot hp1 hla ‹_›).bind fun d s2 h2 => ⟨h2.2, fin d s2 h2.1⟩
  · rename_i hv1 hv2
    refine ⟨(hx hc).2, h1.tr.imp ?_⟩
    rintro a b ⟨rfl, r, rfl⟩
    exact ⟨rfl, t, r, rfl, by
      simp only [List.mem_cons, List.not_mem_nil, or_false, not_or]
      exact ⟨hv2, hv1⟩⟩

theorem wp.suffixOpt (hr : RecOk u S r na ni) (hp : Pre S env s) (ha : s.mu ≤ na)
    (hc : Clean s) :
    wp u (P.suffixOpt r) s (fun d s' => Clean s' ∧ match d with
      | some d => Tr S 1 s s' (fun i r => ∀ i0 e, Derives (Located S) env (.lhs true) i0 i e →
          Derives (Located S) env (.lhs true) i0 r (d.appendTo e))
      | none => Tr S 0 s s' (fun i r => i = r ∧ NextNotIn r [.dot, .lBrack, .lParen])) := by
  unfold P.suffixOpt
  refine (wp.peekOpC hp.inv).bind fun t s1 h1 => ?_
  obtain ⟨h1, hx⟩ := h1
  have hp1 := h1.tr.pre hp
  have := h1.tr.mu
  obtain ⟨tl, hla⟩ := h1.la
  split
  · refine (wp.derefDot hp1 hla ‹_›).bind fun d s2 h2 => ?_
    refine ⟨h2.2, (h1.tr.trans h2.1).mono (Nat.le_add_left ..) ?_⟩
    rintro a b ⟨_, ⟨rfl, _⟩, h⟩ i0 e he
    exact h true i0 e he
  · refine (wp.derefBrack hr hp1 (by omega) hla ‹_›).bind fun d s2 h2 => ?_
    refine ⟨h2.2, (h1.tr.trans h2.1).mono (Nat.le_add_left ..) ?_⟩
    rintro a b ⟨_, ⟨rfl, _⟩, h⟩ i0 e he
    exact h true i0 e he
  · refine (wp.arguments hr hp1 (by omega)).bind fun d s2 h2 => ?_
    refine ⟨h2.2, (h1.tr.trans h2.1).mono (Nat.le_add_left ..) ?_⟩
    rintro a b ⟨_, ⟨rfl, _⟩, t, i1, rfl, hv, hd, hv2⟩ i0 e he
    exact .call he hv hd hv2
  · rename_i hv1 hv2 hv3
    refine ⟨(hx hc).2, h1.tr.imp ?_⟩
    rintro a b ⟨rfl, r, rfl⟩
    exact ⟨rfl, t, r, rfl, by
      simp only [List.mem_cons, List.not_mem_nil, or_false, not_or]
      exact ⟨hv1, hv2, hv3⟩⟩

theorem wp.moreSuffixes (hr : RecOk u S r na ni) {base : Expr} (hp : Pre S env s) (ha : s.mu ≤ na)
    (hc : Clean s) :
    wp u (P.moreSuffixes r base) s (fun e s' => Clean s' ∧ Tr S 0 s s' (fun i r =>
      NextNotIn r [.dot, .lBrack, .lParen] ∧
      ∀ i0, Derives (Located S) env (.lhs true) i0 i base → Derives (Located S) env (.lhs true) i0 r e)) := by
  unfold P.moreSuffixes
  refine wp.loop (fun e s1 => Clean s1 ∧ Tr S 0 s s1 (fun i r =>
      ∀ i0, Derives (Located S) env (.lhs true) i0 i base → Derives (Located S) env (.lhs true) i0 r e)) ?_ ?_
  · exact ⟨hc, (Tr.refl hp.inv).imp (by rintro a b rfl i0 h; exact h)⟩
  · rintro e s1 ⟨hc1, h1⟩
    have := h1.mu
    unfold suffixStep
    refine (wp.suffixOpt hr (h1.pre hp) (by omega) hc1).bind ?_
    rintro (_ | d) s2 ⟨hc2, h2⟩
    · refine ⟨hc2, (h1.trans h2).imp ?_⟩
      rintro a b ⟨_, h, rfl, hn⟩
      exact ⟨hn, fun i0 hd => h i0 hd⟩
    · have := h2.mu
      refine ⟨⟨hc2, (h1.trans h2).mono (Nat.zero_le _) ?_⟩, by omega⟩
      rintro a b ⟨_, h, h'⟩ i0 hd
      exact h' _ _ (h i0 hd)

theorem newBase_false {i r : List Token} {e : Expr} {b : Bool}
    (h : Derives (Located S) env (.newBase b) i r e) : Derives (Located S) env (.newBase false) i r e := by
  cases h with
  | newBaseMember hn h => exact .newBaseMember hn h
  | newBaseArgs h => exact .newBaseArgs h
  | newBaseNoArgs h => exact .newBaseNoArgs h

theorem wp.newLoop (hr : RecOk u S r na ni) : ∀ (news : List Token) (hasArgs : Bool) (base : Expr)
    (s : PState), (∀ t ∈ news, t.value = .reserved .new) → Pre S env s → s.mu ≤ na → Clean s →
    wp u (P.newLoop r news hasArgs base) s (fun e s' => Clean s' ∧ Tr S 0 s s' (fun i r =>
      ∀ i0, Derives (Located S) env (.newBase hasArgs) i0 i base →
      (hasArgs = false → NextIsNot i .lParen) →
      (news = [] ∧ e = base ∧ i = r) ∨ ∃ b, Derives (Located S) env (.new b) (news.reverse ++ i0) r e)) := by
  intro news
  induction news with
  | nil =>
    intro hasArgs base s _ hp _ hc0
    unfold P.newLoop
    refine wp.pure ⟨hc0, (Tr.refl hp.inv).imp ?_⟩
    rintro a b rfl i0 h _
    exact .inl ⟨rfl, rfl, rfl⟩
  | cons new news ih =>
    intro hasArgs base s hn hp ha hc0
    have hnew := hn new (List.mem_cons_self ..)
    have hns := fun t ht => hn t (List.mem_cons_of_mem _ ht)
    unfold P.newLoop
    -- after the decision
    have noArgs : ∀ s1, Clean s1 → Tr S 0 s s1 (fun i r => i = r ∧ (hasArgs = true → NextIsNot i .lParen)) →
        wp u (P.newLoop r news false (.eNew (spanLoc (some new.location) base.loc) base .none)) s1
        (fun e s' => Clean s' ∧ Tr S 0 s s' (fun i r =>
      ∀ i0, Derives (Located S) env (.newBase hasArgs) i0 i base →
      (hasArgs = false → NextIsNot i .lParen) →
      (new :: news = [] ∧ e = base ∧ i = r) ∨
        ∃ b, Derives (Located S) env (.new b) ((new :: news).reverse ++ i0) r e)) := by
      intro s1 hc1 h1
      have := h1.mu
      refine (ih false _ s1 hns (h1.pre hp) (by omega) hc1).mono fun e s2 h2 => ?_
      refine ⟨h2.1, (h1.trans h2.2).imp ?_⟩
      rintro a b ⟨_, ⟨rfl, hx⟩, h⟩ i0 hd hf
      have hnl : NextIsNot a .lParen := by
        cases hasArgs
        · exact hf rfl
        · exact hx rfl
      have hd' : Derives (Located S) env (.new false) (new :: i0) a _ :=
        .newNoArgs hnew (newBase_false hd) hnl
      refine .inr ?_
      rcases h _ (.newBaseNoArgs hd') (fun _ => hnl) with ⟨rfl, rfl, rfl⟩ | ⟨b', hb⟩
      · exact ⟨false, hd'⟩
      · exact ⟨b', by simpa using hb⟩
    cases hasArgs with
    | false =>
      refine wp.ite (fun h => (by cases h)) fun _ => wp.pure_bind ?_
      refine wp.ite (fun h => (by cases h)) fun _ => ?_
      exact noArgs s hc0 ((Tr.refl hp.inv).imp (by rintro a b rfl; exact ⟨rfl, by intro h; cases h⟩))
    | true =>
      refine wp.ite (fun _ => ?_) (fun h => absurd rfl h)
      refine (wp.peekOpC hp.inv).bind fun t s1 h1 => wp.pure_bind ?_
      obtain ⟨h1, hx⟩ := h1
      rw [eqv_plain rfl]
      have hmu1 := h1.tr.mu
      refine wp.ite (fun hc => ?_) (fun hc => ?_)
      · refine (wp.arguments hr (h1.tr.pre hp) (by omega)).bind fun a s2 h2 => ?_
        obtain ⟨h2, hc2⟩ := h2
        have hmu2 := h2.mu
        rw [hc]
        refine (ih true _ s2 hns (h2.pre (h1.tr.pre hp)) (by omega) hc2).mono fun e s3 h3 => ?_
        refine ⟨h3.1, (h1.tr.trans (h2.trans h3.2)).mono (Nat.zero_le _) ?_⟩
        rintro a b ⟨_, ⟨rfl, _⟩, _, ⟨t, i1, rfl, hv, hd, hv2⟩, h⟩ i0 hb hf
        have hd' : Derives (Located S) env (.new true) (new :: i0) _ _ := .newArgs hnew hb hv hd hv2
        refine .inr ?_
        rcases h _ (.newBaseArgs hd') (by intro h; cases h) with ⟨rfl, rfl, rfl⟩ | ⟨b', hb⟩
        · exact ⟨true, hd'⟩
        · exact ⟨b', by simpa using hb⟩
      · rw [Bool.eq_false_iff.2 hc]
        refine noArgs s1 (hx hc0).2 (h1.tr.imp ?_)
        rintro a b ⟨rfl, r, rfl⟩
        exact ⟨rfl, fun _ => ⟨t, r, rfl, by simpa using hc⟩⟩

theorem wp.moreNewExpression (hr : RecOk u S r na ni) {news : List Token} {base : Expr}
    (hn : ∀ t ∈ news, t.value = .reserved .new) (hne : news ≠ [])
    (hp : Pre S env s) (ha : s.mu ≤ na) (hc : Clean s) :
    wp u (P.moreNewExpression r news base) s (fun e s' => Clean s' ∧ Tr S 0 s s' (fun i r =>
      NextNotIn r [.dot, .lBrack, .lParen] ∧ ∀ i0, Derives (Located S) env (.lhs false) i0 i base → Derives (Located S) env (.lhs true) (news ++ i0) r e)) := by
  unfold P.moreNewExpression
  have hl : wp u (P.loop (derefStep r) base) s (fun e s' => Clean s' ∧ Tr S 0 s s' (fun i r =>
      NextNotIn r [.dot, .lBrack] ∧ ∀ i0, Derives (Located S) env (.lhs false) i0 i base → Derives (Located S) env (.lhs false) i0 r e)) := by
    refine wp.loop (fun e s1 => Clean s1 ∧ Tr S 0 s s1 (fun i r =>
      ∀ i0, Derives (Located S) env (.lhs false) i0 i base → Derives (Located S) env (.lhs false) i0 r e)) ?_ ?_
    · exact ⟨hc, (Tr.refl hp.inv).imp (by rintro a b rfl i0 h; exact h)⟩
    · rintro e s1 ⟨hc1, h1⟩
      have := h1.mu
      unfold derefStep
      refine (wp.derefOpt hr (h1.pre hp) (by omega) hc1).bind ?_
      rintro (_ | d) s2 ⟨hc2, h2⟩
      · refine ⟨hc2, (h1.trans h2).imp ?_⟩
        rintro a b ⟨_, h, rfl, hn⟩
        exact ⟨hn, fun i0 hd => h i0 hd⟩
      · have := h2.mu
        refine ⟨⟨hc2, (h1.trans h2).mono (Nat.zero_le _) ?_⟩, by omega⟩
        rintro a b ⟨_, h, h'⟩ i0 hd
        exact h' _ _ _ (h i0 hd)
  refine hl.bind fun e1 s1 h1 => ?_
  obtain ⟨hc1, h1⟩ := h1
  have := h1.mu
  refine (wp.newLoop hr news.reverse true e1 s1 (by simpa using hn) (h1.pre hp)
    (by omega) hc1).bind fun e2 s2 h2 => ?_
  obtain ⟨hc2, h2⟩ := h2
  have := h2.mu
  refine (wp.moreSuffixes hr (h2.pre (h1.pre hp)) (by omega) hc2).mono fun e3 s3 h3 => ?_
  refine ⟨h3.1, (h1.trans (h2.trans h3.2)).mono (Nat.zero_le _) ?_⟩
  rintro a b ⟨_, ⟨hx, hb⟩, _, hn', hn, hs⟩
  refine ⟨hn, fun i0 hd => ?_⟩
  rcases hn' i0 (.newBaseMember hx (hb i0 hd)) (by intro h; cases h) with ⟨h, _⟩ | ⟨b', hb⟩
  · exact absurd (List.reverse_eq_nil_iff.1 h) hne
  · exact hs _ (.lhsNew (by simpa using hb))

theorem wp.lhsExpression (hr : RecOk u S r na ni) (hp : Pre S env s) (ha : s.mu ≤ na)
    (hi : s.mu ≤ ni) : wp u (P.lhsExpression r) s (fun e s' => Clean s' ∧ Tr S 1 s s' (fun i r =>
      NextNotIn r [.dot, .lBrack, .lParen] ∧ Derives (Located S) env (.lhs true) i r e)) := by
  unfold P.lhsExpression
  have hl : wp u (P.loop newsStep []) s (fun news s' => (∀ t ∈ news, t.value = .reserved .new) ∧
      Tr S news.length s s' (fun i r => i = news ++ r)) := by
    refine wp.loop (fun news s' => (∀ t ∈ news, t.value = .reserved .new) ∧
      Tr S news.length s s' (fun i r => i = news ++ r)) ?_ ?_
    · exact ⟨by simp, (Tr.refl hp.inv).imp (by rintro a b rfl; rfl)⟩
    · rintro news s1 ⟨hn, h1⟩
      unfold newsStep
      refine (wp.peek h1.inv).bind fun t s2 h2 => ?_
      have := h2.tr.mu
      rw [eqv_plain rfl]
      refine wp.ite (fun hc => ?_) (fun hc => ?_)
      · obtain ⟨tl, hla⟩ := h2.la
        refine (wp.reread h2.tr.inv hla (by simpa using hc) rfl).bind ?_
        rintro _ s3 ⟨rfl, h3⟩
        have h3' := h3.one (by simpa using hc)
        have := h3'.mu
        refine ⟨⟨?_, ((h1.trans h2.tr).trans h3').mono (by simp) ?_⟩, by omega⟩
        · intro t' ht'
          rcases List.mem_append.1 ht' with h | h
          · exact hn t' h
          · rw [List.mem_singleton.1 h]; simpa using hc
        · rintro a b ⟨_, ⟨_, rfl, rfl, _⟩, rfl⟩
          simp
      · exact ⟨hn, (h1.trans h2.tr).imp (by rintro a b ⟨_, rfl, rfl, _⟩; rfl)⟩
  refine hl.bind ?_
  rintro news s1 ⟨hn, h1⟩
  have hp1 := h1.pre hp
  have := h1.mu
  refine wp.ite (fun hc => ?_) (fun hc => ?_)
  · have hne : news ≠ [] := by rintro rfl; cases hc
    refine (wp.matchesOp hp1.inv rfl).bind ?_
    rintro _ s2 ⟨t2, ⟨rfl, hv2, h2⟩ | ⟨rfl, hv2, h2⟩⟩
    · have := (h2.one hv2).mu
      refine (wp.expect h2.tr.inv rfl).bind ?_
      rintro t3 s3 ⟨hv3, h3⟩
      have := h3.zero.mu
      have h13 := (h1.trans (h2.zero.trans h3.zero))
      have hp3 := h13.pre hp
      obtain ⟨ns, new, rfl⟩ : ∃ ns new, news = ns ++ [new] :=
        ⟨_, _, (List.dropLast_concat_getLast hne).symm⟩
      simp only [List.getLast?_append, List.getLast?_singleton, Option.some_or, Option.map_some,
        List.dropLast_concat]
      have hnew : new.value = .reserved .new := hn new (by simp)
      refine wp.ite (fun hc => ?_) (fun hc => ?_)
      · refine (wp.moreNewExpression hr (fun t ht => hn t (by simp [ht]))
          (by rintro rfl; cases hc) hp3 (by omega) h3.clean).mono fun e s4 h4 => ?_
        refine ⟨h4.1, (h13.trans h4.2).mono (by simp) ?_⟩
        rintro a b ⟨_, ⟨_, rfl, _, rfl, rfl⟩, hx, hd⟩
        exact ⟨hx, by simpa using hd _ (.newTarget hnew hv2 hv3)⟩
      · have hns : ns = [] := by cases ns with
          | nil => rfl
          | cons => exact absurd (Nat.succ_pos _) hc
        subst hns
        refine (wp.moreSuffixes hr hp3 (by omega) h3.clean).mono fun e s4 h4 => ?_
        refine ⟨h4.1, (h13.trans h4.2).mono (by simp) ?_⟩
        rintro a b ⟨_, ⟨_, rfl, _, rfl, rfl⟩, hx, hd⟩
        exact ⟨hx, by simpa using hd _ (.newTarget hnew hv2 hv3)⟩
    · have := h2.tr.mu
      unfold P.newExpression
      refine (wp.memberBaseExpression hr (h2.tr.pre hp1) (by omega) (by omega) false).bind
        fun e s3 h3 => ?_
      obtain ⟨h3, hc3⟩ := h3
      have := h3.mu
      refine (wp.moreNewExpression hr hn hne (h3.pre (h2.tr.pre hp1)) (by omega) hc3).mono
        fun e s4 h4 => ?_
      refine ⟨h4.1, (h1.trans (h2.tr.trans (h3.trans h4.2))).mono (by omega) ?_⟩
      rintro a b ⟨_, rfl, _, ⟨rfl, _⟩, _, hb, hx, hd⟩
      exact ⟨hx, hd _ hb⟩
  · have hne : news = [] := by cases news with
      | nil => rfl
      | cons => exact absurd (Nat.succ_pos _) hc
    subst hne
    unfold P.callExpression
    refine (wp.primaryExpression hr hp1 (by omega) (by omega)).bind fun e s3 h3 => ?_
    obtain ⟨h3, hc3⟩ := h3
    have := h3.mu
    refine (wp.moreSuffixes hr (h3.pre hp1) (by omega) hc3).mono fun e s4 h4 => ?_
    refine ⟨h4.1, (h1.trans (h3.trans h4.2)).mono (Nat.le_add_left ..) ?_⟩
    rintro a b ⟨_, rfl, _, hb, hx, hd⟩
    exact ⟨hx, hd _ (.lhsPrimary hb)⟩

end P

end Esprit
