import Verif.Proofs.Parser.Stmt

/-! `for` statements, jumps, labels, and the list of all statements. -/

set_option linter.unusedSectionVars false
set_option linter.unusedVariables false

namespace Esprit

open Lex ReaderSpec Grammar

namespace P

variable [Env] [LawfulEnv] {S : Str} {env : Scope} {u : Bool} {n m na ni : Nat}
  {s s1 s2 s' : PState} {t : Token} {α β : Type} {r : Rec}

theorem Ident.withIn {b b' : Bool} {i : Id} (h : Ident env b t i) :
    Ident (env.withIn b') b t i := by
  cases h with
  | mk hv hid => exact .mk hv hid

theorem wp.forVar (hr : RecOk u S r na ni) (hp : Pre S env s) (ha : s.mu ≤ na) (hi : s.mu ≤ ni)
    {tl : List Token} (hla : s.la = t :: tl) (hv : t.value = .reserved .var) :
    wp u (P.forVar r) s (fun x s' => Tr S 0 s s' (ForTail S env x)) := by
  unfold P.forVar
  refine (wp.reread hp.inv hla hv rfl).bind ?_
  rintro _ s1 ⟨rfl, h1⟩
  have h1' := h1.one hv
  have := h1'.mu
  have hp1 := h1.tr.pre hp
  refine (wp.pattern hp1).bind ?_
  rintro _ s2 ⟨i, t2, rfl, hid, h2⟩
  have := h2.mu
  have hp2 := h2.pre hp1
  refine (wp.peek hp2.inv).bind fun t3 s3 h3 => ?_
  have := h3.tr.mu
  have hp3 := h3.tr.pre hp2
  obtain ⟨tl3, hla3⟩ := h3.la
  have h13 := h1'.trans (h2.trans h3.tr)
  have none : wp u (P.moreForHead r (some t.location) (.dtSimple i.location i .none) .fhVar) s3
      (fun x s' => Tr S 0 s s' (ForTail S env x)) := by
    refine (wp.moreForHead hr hp3 (by omega) (by omega)).mono fun x s4 h4 => ?_
    refine (h13.trans h4).mono (Nat.zero_le _) ?_
    rintro a b ⟨_, ⟨_, rfl, _, rfl, rfl, _⟩, hx⟩
    exact hx _ _ (.headDtorNone (Ident.withIn hid)) fun ds t2 rest hd hv2 => .forHeadVar hv hd hv2
  split
  · rename_i hv3
    refine (wp.reread hp3.inv hla3 hv3 rfl).bind ?_
    rintro _ s4 ⟨rfl, h4⟩
    have := h4.zero.mu
    refine (wp.assignIn hr false (h4.tr.pre hp3) (by omega)).bind fun e s5 h5 => ?_
    have := h5.mu
    have hp5 := h5.pre (h4.tr.pre hp3)
    refine (wp.peek hp5.inv).bind fun t6 s6 h6 => ?_
    have := h6.tr.mu
    have hp6 := h6.tr.pre hp5
    obtain ⟨tl6, hla6⟩ := h6.la
    have h16 := h13.trans (h4.zero.trans (h5.trans h6.tr))
    have init : wp u (P.moreForHead r (some t.location) (Dtor.fromSimpleInit i e) .fhVar) s6
        (fun x s' => Tr S 0 s s' (ForTail S env x)) := by
      refine (wp.moreForHead hr hp6 (by omega) (by omega)).mono fun x s7 h7 => ?_
      refine (h16.trans h7).mono (Nat.zero_le _) ?_
      rintro a b ⟨_, ⟨_, ⟨_, rfl, _, rfl, rfl, _⟩, _, rfl, _, he, rfl, _⟩, hx⟩
      exact hx _ _ (.headDtorInit (Ident.withIn hid) hv3 he)
        fun ds t2 rest hd hv2 => .forHeadVar hv hd hv2
    split
    · exact init
    · exact init
    · rename_i hv6
      refine (wp.reread hp6.inv hla6 hv6 rfl).bind ?_
      rintro _ s7 ⟨rfl, h7⟩
      have := h7.zero.mu
      refine (wp.moreForIn hr (h7.tr.pre hp6) (by omega) (by omega)).mono fun x s8 h8 => ?_
      refine (h16.trans (h7.zero.trans h8)).mono (Nat.zero_le _) ?_
      rintro a b ⟨_, ⟨_, ⟨_, rfl, _, rfl, rfl, _⟩, _, rfl, _, he, rfl, _⟩, _, rfl, hx⟩
      exact hx _ _ hv6 (.forInVarInit hv hid hv3 he)
    · exact wp.unexpected hp6.inv hla6
  · exact none
  · exact none
  · rename_i hv3
    refine (wp.reread hp3.inv hla3 hv3 rfl).bind ?_
    rintro _ s4 ⟨rfl, h4⟩
    have := h4.zero.mu
    refine (wp.moreForIn hr (h4.tr.pre hp3) (by omega) (by omega)).mono fun x s5 h5 => ?_
    refine (h13.trans (h4.zero.trans h5)).mono (Nat.zero_le _) ?_
    rintro a b ⟨_, ⟨_, rfl, _, rfl, rfl, _⟩, _, rfl, hx⟩
    exact hx _ _ hv3 (.forInVar hv (.pattern hid))
  · rename_i hv3
    refine (wp.reread hp3.inv hla3 hv3 rfl).bind ?_
    rintro _ s4 ⟨rfl, h4⟩
    have := h4.zero.mu
    refine (wp.moreForOf hr (h4.tr.pre hp3) (by omega) (by omega)).mono fun x s5 h5 => ?_
    refine (h13.trans (h4.zero.trans h5)).mono (Nat.zero_le _) ?_
    rintro a b ⟨_, ⟨_, rfl, _, rfl, rfl, _⟩, _, rfl, hx⟩
    exact hx _ _ hv3 (.forOfVar hv (.pattern hid))
  · exact wp.unexpected hp3.inv hla3

theorem wp.forExpr (hr : RecOk u S r na ni) (hp : Pre S env s) (ha : s.mu < na) (hi : s.mu < ni) :
    wp u (P.forExpr r) s (fun x s' => Tr S 0 s s' (fun i r => LetNoDivision i →
      ForExprStart i → ForTail S env x i r)) := by
  unfold P.forExpr
  refine (wp.exprIn hr false hp ha).bind fun e s1 h1 => ?_
  have := h1.mu
  have hp1 := h1.pre hp
  refine (wp.peek hp1.inv).bind fun t2 s2 h2 => ?_
  have := h2.tr.mu
  have hp2 := h2.tr.pre hp1
  obtain ⟨tl, hla⟩ := h2.la
  split
  · rename_i hv
    refine (wp.reread hp2.inv hla hv rfl).bind ?_
    rintro _ s3 ⟨rfl, h3⟩
    have := h3.zero.mu
    refine (wp.moreFor hr (h3.tr.pre hp2) (by omega) (by omega)).mono fun x s4 h4 => ?_
    refine (h1.trans (h2.tr.trans (h3.zero.trans h4))).mono (Nat.zero_le _) ?_
    rintro a b ⟨_, he, _, ⟨rfl, _⟩, _, rfl, hx⟩ hd hs
    exact hx _ (.forHeadExpr hd hs he hv)
  · rename_i hv
    refine (wp.reread hp2.inv hla hv rfl).bind ?_
    rintro _ s3 ⟨rfl, h3⟩
    have := h3.zero.mu
    refine wp.toPatt.bind ?_
    rintro p _ ⟨rfl, rfl, has⟩
    refine (wp.moreForIn hr (h3.tr.pre hp2) (by omega) (by omega)).mono fun x s4 h4 => ?_
    refine (h1.trans (h2.tr.trans (h3.zero.trans h4))).mono (Nat.zero_le _) ?_
    rintro a b ⟨_, he, _, ⟨rfl, _⟩, _, rfl, hx⟩ hd hs
    exact hx _ _ hv (.forInPatt hd hp.env.notPlain has hs he)
  · rename_i hv
    refine (wp.reread hp2.inv hla hv rfl).bind ?_
    rintro _ s3 ⟨rfl, h3⟩
    have := h3.zero.mu
    refine wp.toPatt.bind ?_
    rintro p _ ⟨rfl, rfl, has⟩
    refine (wp.moreForOf hr (h3.tr.pre hp2) (by omega) (by omega)).mono fun x s4 h4 => ?_
    refine (h1.trans (h2.tr.trans (h3.zero.trans h4))).mono (Nat.zero_le _) ?_
    rintro a b ⟨_, he, _, ⟨rfl, _⟩, _, rfl, hx⟩ hd hs
    exact hx _ _ hv (.forOfPatt hd hp.env.notPlain has hs he)
  · exact wp.unexpected hp2.inv hla

theorem wp.forLet (hr : RecOk u S r na ni) (hp : Pre S env s) (ha : s.mu < na) (hi : s.mu < ni)
    {tl : List Token} (hla : s.la = t :: tl) (hl : tl = []) (hv : t.value = .identifier (.atom .«let»)) :
    wp u (P.forLet r) s (fun x s' => Tr S 0 s s' (ForTail S env x)) := by
  unfold P.forLet
  refine (wp.reread hp.inv hla hv rfl).bind ?_
  rintro _ s1 ⟨rfl, h1⟩
  have h1' := h1.one hv
  have := h1'.mu
  have hp1 := h1.tr.pre hp
  have hla1 := h1.la1 hp.inv
  refine (wp.peekC hp1.inv).bind ?_
  rintro t2 s2 ⟨h2, hdiv, hclean⟩
  have := h2.tr.mu
  have hp2 := h2.tr.pre hp1
  have hlen := h2.len
  refine wp.ite (fun hc => ?_) (fun hc => ?_)
  · by_cases hre : ∃ x, t2.value = .regExp x
    · obtain ⟨tl2, hl2⟩ := h2.la
      have hl : tl2 = [] := by
        have := congrArg List.length hl2
        simp only [List.length_cons] at this
        exact List.length_eq_zero_iff.1 (by omega)
      subst hl
      refine wp.bind (wp.unread (Q := fun _ s3 => s3 = s2.push t) (by omega) rfl) ?_
      rintro _ _ rfl
      refine bf.forExpr (fun s4 h4 hmu => hr.bad s4 t t2 h4 ?_)
        ⟨congrArg (t :: ·) hl2, .inl ⟨_, hv⟩, hre⟩
      have := h1.tr.mu
      rw [hmu, mu_push]
      omega
    refine wp.bind (wp.unread (Q := fun _ s3 => s3 = s2.push t) (by omega) rfl) ?_
    rintro _ _ rfl
    have h3 := h1.unread h2.tr (fun _ _ h => h.1) (by omega) h2.ne
      (hclean fun x hx => hre ⟨x, hx⟩)
    have := h3.mu
    refine (wp.forExpr hr (h3.pre hp) (by omega) (by omega)).mono fun x s4 h4 => ?_
    refine (h3.trans h4).mono (Nat.zero_le _) ?_
    rintro a b ⟨_, ⟨rfl, r, rfl, -, r', rfl⟩, hx⟩
    refine hx ?_ ⟨_, _, rfl, ?_, ?_, fun _ => ⟨_, _, rfl, ?_⟩⟩
    · rintro _ _ h -
      cases h
      rintro _ _ h
      cases h
      exact hdiv (List.length_eq_zero_iff.1 (by
        have := h1.la
        rw [hla, hl] at this
        simpa using this))
    · rw [hv]; intro h; cases h
    · rw [hv]; intro h; cases h
    · rw [← firstBinding_iff]; simpa using hc
  · refine (wp.pattern hp2).bind ?_
    rintro _ s3 ⟨i, t3, rfl, hid, h3⟩
    have := h3.mu
    have hp3 := h3.pre hp2
    refine (wp.peek hp3.inv).bind fun t4 s4 h4 => ?_
    have := h4.tr.mu
    have hp4 := h4.tr.pre hp3
    obtain ⟨tl4, hla4⟩ := h4.la
    have h14 := h1'.trans (h2.tr.trans (h3.trans h4.tr))
    have none : wp u (P.moreForHead r (some t.location) (.dtSimple i.location i .none) .fhLet) s4
        (fun x s' => Tr S 0 s s' (ForTail S env x)) := by
      refine (wp.moreForHead hr hp4 (by omega) (by omega)).mono fun x s5 h5 => ?_
      refine (h14.trans h5).mono (Nat.zero_le _) ?_
      rintro a b ⟨_, ⟨_, rfl, _, ⟨rfl, _⟩, _, rfl, rfl, _⟩, hx⟩
      exact hx _ _ (.headDtorNone (Ident.withIn hid)) fun ds t2 rest hd hv2 => .forHeadLet hv hd hv2
    split
    · rename_i hv4
      refine (wp.reread hp4.inv hla4 hv4 rfl).bind ?_
      rintro _ s5 ⟨rfl, h5⟩
      have := h5.zero.mu
      refine (wp.assignIn hr false (h5.tr.pre hp4) (by omega)).bind fun e s6 h6 => ?_
      have := h6.mu
      refine (wp.moreForHead hr (h6.pre (h5.tr.pre hp4)) (by omega) (by omega)).mono
        fun x s7 h7 => ?_
      refine (h14.trans (h5.zero.trans (h6.trans h7))).mono (Nat.zero_le _) ?_
      rintro a b ⟨_, ⟨_, rfl, _, ⟨rfl, _⟩, _, rfl, rfl, _⟩, _, rfl, _, he, hx⟩
      exact hx _ _ (.headDtorInit (Ident.withIn hid) hv4 he)
        fun ds t2 rest hd hv2 => .forHeadLet hv hd hv2
    · exact none
    · exact none
    · rename_i hv4
      refine (wp.reread hp4.inv hla4 hv4 rfl).bind ?_
      rintro _ s5 ⟨rfl, h5⟩
      have := h5.zero.mu
      refine (wp.moreForIn hr (h5.tr.pre hp4) (by omega) (by omega)).mono fun x s6 h6 => ?_
      refine (h14.trans (h5.zero.trans h6)).mono (Nat.zero_le _) ?_
      rintro a b ⟨_, ⟨_, rfl, _, ⟨rfl, _⟩, _, rfl, rfl, _⟩, _, rfl, hx⟩
      exact hx _ _ hv4 (.forInLet hv (.pattern hid))
    · rename_i hv4
      refine (wp.reread hp4.inv hla4 hv4 rfl).bind ?_
      rintro _ s5 ⟨rfl, h5⟩
      have := h5.zero.mu
      refine (wp.moreForOf hr (h5.tr.pre hp4) (by omega) (by omega)).mono fun x s6 h6 => ?_
      refine (h14.trans (h5.zero.trans h6)).mono (Nat.zero_le _) ?_
      rintro a b ⟨_, ⟨_, rfl, _, ⟨rfl, _⟩, _, rfl, rfl, _⟩, _, rfl, hx⟩
      exact hx _ _ hv4 (.forOfLet hv (.pattern hid))
    · exact wp.unexpected hp4.inv hla4

theorem wp.forConst (hr : RecOk u S r na ni) (hp : Pre S env s) (ha : s.mu < na) (hi : s.mu < ni)
    {tl : List Token} (hla : s.la = t :: tl) (hv : t.value = .reserved .const) :
    wp u (P.forConst r) s (fun x s' => Tr S 0 s s' (ForTail S env x)) := by
  unfold P.forConst
  refine (wp.reread hp.inv hla hv rfl).bind ?_
  rintro _ s1 ⟨rfl, h1⟩
  have h1' := h1.one hv
  have := h1'.mu
  have hp1 := h1.tr.pre hp
  have hla1 := h1.la1 hp.inv
  refine (wp.peekC hp1.inv).bind ?_
  rintro t2 s2 ⟨h2, hdiv, hclean⟩
  have := h2.tr.mu
  have hp2 := h2.tr.pre hp1
  have hlen := h2.len
  refine wp.ite (fun hc => ?_) (fun hc => ?_)
  · by_cases hre : ∃ x, t2.value = .regExp x
    · obtain ⟨tl2, hl2⟩ := h2.la
      have hl : tl2 = [] := by
        have := congrArg List.length hl2
        simp only [List.length_cons] at this
        exact List.length_eq_zero_iff.1 (by omega)
      subst hl
      refine wp.bind (wp.unread (Q := fun _ s3 => s3 = s2.push t) (by omega) rfl) ?_
      rintro _ _ rfl
      refine bf.forExpr (fun s4 h4 hmu => hr.bad s4 t t2 h4 ?_)
        ⟨congrArg (t :: ·) hl2, .inr hv, hre⟩
      have := h1.tr.mu
      rw [hmu, mu_push]
      omega
    refine wp.bind (wp.unread (Q := fun _ s3 => s3 = s2.push t) (by omega) rfl) ?_
    rintro _ _ rfl
    have h3 := h1.unread h2.tr (fun _ _ h => h.1) (by omega) h2.ne
      (hclean fun x hx => hre ⟨x, hx⟩)
    have := h3.mu
    refine (wp.forExpr hr (h3.pre hp) (by omega) (by omega)).mono fun x s4 h4 => ?_
    refine (h3.trans h4).mono (Nat.zero_le _) ?_
    rintro a b ⟨_, ⟨rfl, r, rfl, -, r', rfl⟩, hx⟩
    refine hx ?_ ⟨_, _, rfl, ?_, ?_, fun h => ?_⟩
    · rintro _ _ h h'
      cases h
      rw [hv] at h'
      cases h'
    · rw [hv]; intro h; cases h
    · rw [hv]; intro h; cases h
    · rw [hv] at h; cases h
  · refine (wp.pattern hp2).bind ?_
    rintro _ s3 ⟨i, t3, rfl, hid, h3⟩
    have := h3.mu
    have hp3 := h3.pre hp2
    refine (wp.peek hp3.inv).bind fun t4 s4 h4 => ?_
    have := h4.tr.mu
    have hp4 := h4.tr.pre hp3
    obtain ⟨tl4, hla4⟩ := h4.la
    have h14 := h1'.trans (h2.tr.trans (h3.trans h4.tr))
    split
    · rename_i hv4
      refine (wp.reread hp4.inv hla4 hv4 rfl).bind ?_
      rintro _ s5 ⟨rfl, h5⟩
      have := h5.zero.mu
      refine wp.bind (wp.allowIn (n := 0) (b := false) (R := fun l a r => ∃ e m xs,
        l = ConstDtor.fromInit (.pSimple (.ident i)) e :: xs ∧
        Derives (Located S) (env.withIn false) .assign a m e ∧
        MoreComma (fun e i r => Derives (Located S) (env.withIn false) .constDtor i r e) xs m r ∧
        NextIsNot r .comma)
        (h5.tr.pre hp4) ?_) fun ds s6 h6 => ?_
      · intro s6 hmu _ hp6
        refine (hr.assign s6 _ hp6 (by omega)).bind fun e s7 h7 => ?_
        have := h7.mu
        refine (wp.moreComma (h7.pre hp6) (b := s7.mu) (Nat.le_refl _) fun s8 hp8 hmu8 =>
          (wp.constDeclarator hr hp8 (by omega)).mono fun _ _ h =>
            h.mono (Nat.zero_le _) fun _ _ h => h).mono ?_
        rintro l s8 ⟨xs, rfl, h8⟩
        refine (h7.trans h8).mono (Nat.zero_le _) ?_
        rintro a b ⟨_, he, hm, hc⟩
        exact ⟨_, _, _, rfl, he, hm, hc⟩
      · have := h6.mu
        refine (wp.expect h6.inv rfl).bind ?_
        rintro t7 s7 ⟨hv7, h7⟩
        have := h7.zero.mu
        refine (wp.moreFor hr (h7.tr.pre (h6.pre (h5.tr.pre hp4))) (by omega) (by omega)).mono
          fun x s8 h8 => ?_
        refine (h14.trans (h5.zero.trans (h6.trans (h7.zero.trans h8)))).mono (Nat.zero_le _) ?_
        rintro a b ⟨_, ⟨_, rfl, _, ⟨rfl, _⟩, _, rfl, rfl, _⟩, _, rfl, _, ⟨e, m, xs, rfl, he, hm, hc⟩,
          _, rfl, hx⟩
        exact hx _ (.forHeadConst hv (constDtors_of_comma
          (.constDtor (.pattern (Ident.withIn hid)) hv4 he) hm hc) hv7)
    · rename_i hv4
      refine (wp.reread hp4.inv hla4 hv4 rfl).bind ?_
      rintro _ s5 ⟨rfl, h5⟩
      have := h5.zero.mu
      refine (wp.moreForIn hr (h5.tr.pre hp4) (by omega) (by omega)).mono fun x s6 h6 => ?_
      refine (h14.trans (h5.zero.trans h6)).mono (Nat.zero_le _) ?_
      rintro a b ⟨_, ⟨_, rfl, _, ⟨rfl, _⟩, _, rfl, rfl, _⟩, _, rfl, hx⟩
      exact hx _ _ hv4 (.forInConst hv (.pattern hid))
    · rename_i hv4
      refine (wp.reread hp4.inv hla4 hv4 rfl).bind ?_
      rintro _ s5 ⟨rfl, h5⟩
      have := h5.zero.mu
      refine (wp.moreForOf hr (h5.tr.pre hp4) (by omega) (by omega)).mono fun x s6 h6 => ?_
      refine (h14.trans (h5.zero.trans h6)).mono (Nat.zero_le _) ?_
      rintro a b ⟨_, ⟨_, rfl, _, ⟨rfl, _⟩, _, rfl, rfl, _⟩, _, rfl, hx⟩
      exact hx _ _ hv4 (.forOfConst hv (.pattern hid))
    · exact wp.unexpected hp4.inv hla4

theorem wp.forStatement (hr : RecOk u S r na ni) (hp : Pre S env s) (ha : s.mu ≤ na)
    (hi : s.mu ≤ ni) {tl : List Token} (hla : s.la = t :: tl) (hv : t.value = .reserved .for) :
    wp u (P.forStatement r) s (Post S env .stmt 1 s) := by
  unfold P.forStatement
  refine wp.spanAst hp.inv ?_
  refine (wp.reread hp.inv hla hv rfl).bind ?_
  rintro _ s1 ⟨rfl, h1⟩
  have h1' := h1.one hv
  have := h1'.mu
  have hp1 := h1.tr.pre hp
  refine (wp.expect hp1.inv rfl).bind ?_
  rintro t2 s2 ⟨hv2, h2⟩
  have := h2.zero.mu
  have hp2 := h2.tr.pre hp1
  refine (wp.peek hp2.inv).bind fun t3 s3 h3 => ?_
  have := h3.tr.mu
  have hp3 := h3.tr.pre hp2
  obtain ⟨tl3, hla3⟩ := h3.la
  have hl3 : tl3 = [] := by
    have h := h3.len
    have := h2.la
    have := h1.la1 hp.inv
    rw [hla3] at h
    simp only [List.length_cons] at h
    exact List.length_eq_zero_iff.1 (by omega)
  have h13 := h1'.trans (h2.zero.trans h3.tr)
  have fin : ∀ x s4 {R : List Token → List Token → Prop}, Tr S 0 s3 s4 R →
      (∀ i r, NextIs i t3.value → (∃ r, i = t3 :: r) → R i r → ForTail S env x i r) →
      Tr S 1 s s4 (fun i r => ∀ l, Located S i r l → Derives (Located S) env .stmt i r (x.setLoc l)) := by
    intro x s4 R h4 hR
    refine (h13.trans h4).mono (Nat.le_add_right ..) ?_
    rintro a b ⟨_, ⟨_, rfl, _, rfl, rfl, r', rfl⟩, hx⟩ l hl
    exact hR _ _ ⟨_, _, rfl, rfl⟩ ⟨_, rfl⟩ hx _ _ _ hv hv2 hl
  split
  · rename_i hv3
    exact (wp.forVar hr hp3 (by omega) (by omega) hla3 hv3).mono fun x s4 h4 =>
      fin x s4 h4 fun _ _ _ _ h => h
  · rename_i hv3
    exact (wp.forLet hr hp3 (by omega) (by omega) hla3 hl3 hv3).mono fun x s4 h4 =>
      fin x s4 h4 fun _ _ _ _ h => h
  · rename_i hv3
    exact (wp.forConst hr hp3 (by omega) (by omega) hla3 hv3).mono fun x s4 h4 =>
      fin x s4 h4 fun _ _ _ _ h => h
  · rename_i hv3
    refine (wp.reread hp3.inv hla3 hv3 rfl).bind ?_
    rintro _ s4 ⟨rfl, h4⟩
    have := h4.zero.mu
    refine (wp.moreFor hr (h4.tr.pre hp3) (by omega) (by omega)).mono fun x s5 h5 => ?_
    refine fin x s5 (h4.zero.trans h5) ?_
    rintro i r _ _ ⟨_, rfl, hx⟩
    exact hx _ (.forHeadNone hv3)
  · rename_i hn1 hn2 hn3 hn4
    refine (wp.forExpr hr hp3 (by omega) (by omega)).mono fun x s4 h4 => ?_
    refine fin x s4 h4 ?_
    rintro i r _ ⟨_, rfl⟩ hx
    refine hx ?_ ⟨_, _, rfl, hn1, hn4, fun h => absurd h hn2⟩
    rintro _ _ h h'
    cases h
    exact absurd h' hn2

/-! ### Jumps -/

theorem wp.hasArgSameLine (hs : Inv S s) :
    wp u P.hasArgSameLine s (fun b s' => Tr S 0 s s' (fun i r => i = r ∧
      if b = true then ArgSameLine i else NoArgSameLine i)) := by
  unfold P.hasArgSameLine
  refine (wp.peek hs).bind fun t s1 h1 => wp.pure ?_
  refine h1.tr.imp ?_
  rintro a b ⟨rfl, r, rfl⟩
  refine ⟨rfl, ?_⟩
  rw [eqv_plain rfl, eqv_plain rfl]
  split
  · rename_i h
    simp only [Bool.and_eq_true, Bool.not_eq_true', decide_eq_false_iff_not] at h
    exact ⟨t, r, rfl, h.1.1, h.1.2, h.2⟩
  · rename_i h
    simp only [Bool.and_eq_true, Bool.not_eq_true', decide_eq_false_iff_not] at h
    refine ⟨t, r, rfl, ?_⟩
    by_cases h1 : t.newline = true
    · exact .inl h1
    · by_cases h2 : t.value = .semi
      · exact .inr (.inl h2)
      · refine .inr (.inr (Decidable.byContradiction fun h3 => h ⟨⟨by simpa using h1, h2⟩, h3⟩))

theorem wp.breakStatement (hp : Pre S env s)
    {tl : List Token} (hla : s.la = t :: tl) (hv : t.value = .reserved .break) :
    wp u P.breakStatement s (Post S env .stmt 1 s) := by
  unfold P.breakStatement
  refine wp.posn_bind ?_
  refine (wp.reread hp.inv hla hv rfl).bind ?_
  rintro _ s1 ⟨rfl, h1⟩
  have h1' := h1.one hv
  have hp1 := h1.tr.pre hp
  have harg : wp u (P.breakArg t) s1 (fun o s' => Tr S 0 s1 s' (fun i r => match o with
      | none => i = r ∧ NoArgSameLine i ∧ (env.iteration = true ∨ env.switch = true)
      | some x => ∃ t2, i = t2 :: r ∧ ArgSameLine i ∧ Ident env false t2 x ∧
          ∃ loop, (x.name, loop) ∈ env.labels)) := by
    unfold P.breakArg
    refine (wp.hasArgSameLine hp1.inv).bind ?_
    rintro (_ | _) s2 h2
    · refine wp.get_bind ?_
      refine wp.ite (fun _ => trivial) (fun hc => wp.pure ?_)
      have he := (h2.pre hp1).env
      rw [he.iteration, he.switch] at hc
      refine h2.imp ?_
      rintro a b ⟨rfl, h⟩
      refine ⟨rfl, h, ?_⟩
      cases h1 : env.iteration <;> cases h2 : env.switch <;> simp_all
    · refine (wp.id (h2.pre hp1)).bind ?_
      rintro x s3 ⟨t3, hid, h3, -⟩
      refine wp.get_bind ?_
      split
      · trivial
      · rename_i lt hl
        refine (h2.trans h3).mono (Nat.zero_le _) ?_
        rintro a b ⟨_, ⟨rfl, h⟩, rfl⟩
        exact ⟨t3, rfl, h, hid, _, (h3.pre (h2.pre hp1)).env.labels _ _ hl⟩
  refine harg.bind fun o s2 h2 => ?_
  refine wp.endStmt' hp.inv (h1'.trans h2) ?_
  rintro i k r semi l ⟨_, rfl, hx⟩ hterm hl
  cases o with
  | none =>
    obtain ⟨rfl, hn, hc⟩ := hx
    exact .breakNone hv hn hc hterm hl
  | some x =>
    obtain ⟨t2, rfl, hs, hid, hlab⟩ := hx
    exact .breakLabel hv hs hid hlab hterm hl

theorem wp.continueStatement (hp : Pre S env s)
    {tl : List Token} (hla : s.la = t :: tl) (hv : t.value = .reserved .continue) :
    wp u P.continueStatement s (Post S env .stmt 1 s) := by
  unfold P.continueStatement
  refine wp.posn_bind ?_
  refine (wp.reread hp.inv hla hv rfl).bind ?_
  rintro _ s1 ⟨rfl, h1⟩
  have h1' := h1.one hv
  have hp1 := h1.tr.pre hp
  have harg : wp u (P.continueArg t) s1 (fun o s' => Tr S 0 s1 s' (fun i r => match o with
      | none => i = r ∧ NoArgSameLine i ∧ env.iteration = true
      | some x => ∃ t2, i = t2 :: r ∧ ArgSameLine i ∧ Ident env false t2 x ∧
          (x.name, true) ∈ env.labels)) := by
    unfold P.continueArg
    refine (wp.hasArgSameLine hp1.inv).bind ?_
    rintro (_ | _) s2 h2
    · refine wp.get_bind ?_
      refine wp.ite (fun _ => trivial) (fun hc => wp.pure ?_)
      have he := (h2.pre hp1).env
      rw [he.iteration] at hc
      refine h2.imp ?_
      rintro a b ⟨rfl, h⟩
      exact ⟨rfl, h, by simpa using hc⟩
    · refine (wp.id (h2.pre hp1)).bind ?_
      rintro x s3 ⟨t3, hid, h3, -⟩
      refine wp.get_bind ?_
      split
      · trivial
      · trivial
      · rename_i hl
        refine (h2.trans h3).mono (Nat.zero_le _) ?_
        rintro a b ⟨_, ⟨rfl, h⟩, rfl⟩
        exact ⟨t3, rfl, h, hid, (h3.pre (h2.pre hp1)).env.labels _ _ hl⟩
  refine harg.bind fun o s2 h2 => ?_
  refine wp.endStmt' hp.inv (h1'.trans h2) ?_
  rintro i k r semi l ⟨_, rfl, hx⟩ hterm hl
  cases o with
  | none =>
    obtain ⟨rfl, hn, hc⟩ := hx
    exact .continueNone hv hn hc hterm hl
  | some x =>
    obtain ⟨t2, rfl, hs, hid, hlab⟩ := hx
    exact .continueLabel hv hs hid hlab hterm hl

theorem wp.returnStatement (hr : RecOk u S r na ni) (hp : Pre S env s) (ha : s.mu ≤ na)
    {tl : List Token} (hla : s.la = t :: tl) (hv : t.value = .reserved .return) :
    wp u (P.returnStatement r) s (Post S env .stmt 1 s) := by
  unfold P.returnStatement
  refine wp.posn_bind ?_
  refine (wp.reread hp.inv hla hv rfl).bind ?_
  rintro _ s1 ⟨rfl, h1⟩
  have h1' := h1.one hv
  have := h1'.mu
  have hp1 := h1.tr.pre hp
  have harg : wp u (P.returnArg r) s1 (fun o s' => Tr S 0 s1 s' (fun i r =>
      (o = .none ∧ i = r ∧ NoArgSameLine i) ∨ ∃ e, o = .some e ∧ ArgSameLine i ∧
        Derives (Located S) (env.withIn true) .expr i r e)) := by
    unfold P.returnArg
    refine (wp.hasArgSameLine hp1.inv).bind ?_
    rintro (_ | _) s2 h2
    · refine h2.imp ?_
      rintro a b ⟨rfl, h⟩
      exact .inl ⟨rfl, rfl, h⟩
    · have := h2.mu
      refine (wp.exprIn hr true (h2.pre hp1) (by omega)).bind fun e s3 h3 => ?_
      refine (h2.trans h3).mono (Nat.zero_le _) ?_
      rintro a b ⟨_, ⟨rfl, h⟩, he⟩
      exact .inr ⟨e, rfl, h, he⟩
  refine harg.bind fun o s2 h2 => ?_
  have h12 := h1'.trans h2
  refine (wp.endWithAutoSemi h12 (fun _ _ hi _ => hi.near hp.inv) h12.off).bind ?_
  rintro _ s3 ⟨l, semi, rfl, ⟨sp, rfl⟩, h3⟩
  refine wp.get_bind ?_
  refine wp.ite (fun _ => trivial) (fun hc => wp.pure ?_)
  have hf : env.function = true := by
    have := (h3.pre hp).env.function
    rw [this] at hc
    simpa using hc
  refine h3.imp ?_
  rintro i r ⟨k, ⟨_, rfl, ⟨rfl, rfl, hn⟩ | ⟨e, rfl, hs, he⟩⟩, hterm, hl⟩
  · exact .returnNone hv hn hf hterm hl
  · exact .returnExpr hv hs hf he hterm hl

theorem wp.throwStatement (hr : RecOk u S r na ni) (hp : Pre S env s) (ha : s.mu ≤ na)
    {tl : List Token} (hla : s.la = t :: tl) (hv : t.value = .reserved .throw) :
    wp u (P.throwStatement r) s (Post S env .stmt 1 s) := by
  unfold P.throwStatement
  refine wp.posn_bind ?_
  refine (wp.reread hp.inv hla hv rfl).bind ?_
  rintro _ s1 ⟨rfl, h1⟩
  have h1' := h1.one hv
  have := h1'.mu
  have hp1 := h1.tr.pre hp
  refine (wp.hasArgSameLine hp1.inv).bind ?_
  rintro (_ | _) s2 h2
  · trivial
  · have := h2.mu
    refine (wp.exprIn hr true (h2.pre hp1) (by omega)).bind fun e s3 h3 => ?_
    refine wp.endStmt' hp.inv ((h1'.trans (h2.trans h3)).mono (m := 1) (by omega) fun _ _ h => h) ?_
    rintro i k r semi l ⟨_, rfl, _, ⟨rfl, hs⟩, he⟩ hterm hl
    exact .throwStmt hv hs he hterm hl

theorem wp.debuggerStatement (hp : Pre S env s)
    {tl : List Token} (hla : s.la = t :: tl) (hv : t.value = .reserved .debugger) :
    wp u P.debuggerStatement s (Post S env .stmt 1 s) := by
  unfold P.debuggerStatement
  refine wp.posn_bind ?_
  refine (wp.reread hp.inv hla hv rfl).bind ?_
  rintro _ s1 ⟨rfl, h1⟩
  refine wp.endStmt' hp.inv (h1.one hv) ?_
  rintro i k r semi l rfl hterm hl
  exact .debuggerStmt hv hterm hl

/-! ### Compound statements -/

theorem wp.withStatement (hr : RecOk u S r na ni) (hp : Pre S env s) (ha : s.mu ≤ na)
    (hi : s.mu ≤ ni) {tl : List Token} (hla : s.la = t :: tl) (hv : t.value = .reserved .with) :
    wp u (P.withStatement r) s (Post S env .stmt 1 s) := by
  unfold P.withStatement
  refine wp.spanAst hp.inv ?_
  refine (wp.reread hp.inv hla hv rfl).bind ?_
  rintro _ s1 ⟨rfl, h1⟩
  have h1' := h1.one hv
  have := h1'.mu
  have hp1 := h1.tr.pre hp
  refine wp.strictCheckPure.bind ?_
  rintro _ s2 ⟨h2, hstrict, -⟩
  have h2' := h2.tr hp1.inv
  have := h2'.mu
  have hp2 := h2'.pre hp1
  have hs : env.strict = false := by
    cases he : env.strict with
    | false => rfl
    | true => exact absurd rfl (hstrict (hp1.env.strict he).1 (hp1.env.strict he).2 _)
  refine (wp.parenExpression hr hp2 (by omega)).bind fun e s3 h3 => ?_
  have := h3.mu
  refine (wp.statement hr (h3.pre hp2) (by omega)).bind fun x s4 h4 => ?_
  refine (h1'.trans (h2'.trans (h3.trans h4))).mono (by omega) ?_
  rintro a b ⟨_, rfl, _, rfl, _, ⟨t2, i1, t3, rfl, hv2, he, hv3⟩, hx⟩ l hl
  exact .withStmt hv hs hv2 he hv3 hx hl

theorem wp.caseClause (hr : RecOk u S r na ni) (hp : Pre S env s) (ha : s.mu ≤ na)
    (hi : s.mu ≤ ni) {tl : List Token} (hla : s.la = t :: tl) (hv : t.value = .reserved .case) :
    wp u (P.caseClause r) s (Post S env .case 1 s) := by
  unfold P.caseClause
  refine wp.spanAst hp.inv ?_
  refine (wp.reread hp.inv hla hv rfl).bind ?_
  rintro _ s1 ⟨rfl, h1⟩
  have h1' := h1.one hv
  have := h1'.mu
  have hp1 := h1.tr.pre hp
  refine (wp.exprIn hr true hp1 (by omega)).bind fun e s2 h2 => ?_
  have := h2.mu
  have hp2 := h2.pre hp1
  refine (wp.expect h2.inv rfl).bind ?_
  rintro t3 s3 ⟨hv3, h3⟩
  have := h3.zero.mu
  refine (wp.statementList hr (h3.tr.pre hp2) (by omega)).bind fun xs s4 h4 => ?_
  refine (h1'.trans (h2.trans (h3.zero.trans h4))).mono (by omega) ?_
  rintro a b ⟨_, rfl, _, he, _, rfl, hx⟩ l hl
  exact .case hv he hv3 hx hl

theorem wp.defaultClause (hr : RecOk u S r na ni) (hp : Pre S env s) (hi : s.mu ≤ ni)
    {tl : List Token} (hla : s.la = t :: tl) (hv : t.value = .reserved .default) :
    wp u (P.defaultClause r) s (Post S env .case 1 s) := by
  unfold P.defaultClause
  refine wp.spanAst hp.inv ?_
  refine (wp.reread hp.inv hla hv rfl).bind ?_
  rintro _ s1 ⟨rfl, h1⟩
  have h1' := h1.one hv
  have := h1'.mu
  have hp1 := h1.tr.pre hp
  refine (wp.expect hp1.inv rfl).bind ?_
  rintro t3 s3 ⟨hv3, h3⟩
  have := h3.zero.mu
  refine (wp.statementList hr (h3.tr.pre hp1) (by omega)).bind fun xs s4 h4 => ?_
  refine (h1'.trans (h3.zero.trans h4)).mono (by omega) ?_
  rintro a b ⟨_, rfl, _, rfl, hx⟩ l hl
  exact .default hv hv3 hx hl

theorem wp.switchCases (hr : RecOk u S r na ni) (hp : Pre S env s) (ha : s.mu ≤ na)
    (hi : s.mu ≤ ni) :
    wp u (P.switchCases r) s (fun cs s' => (cs.filter isDefault).length ≤ 1 ∧
      Tr S 1 s s' (fun i r => ∃ t i1 t2, i = t :: i1 ∧ t.value = .lBrace ∧
        Derives (Located S) env .cases i1 (t2 :: r) (.ofList cs) ∧ t2.value = .rBrace)) := by
  unfold P.switchCases
  refine (wp.expect hp.inv rfl).bind ?_
  rintro t1 s1 ⟨hv1, h1⟩
  have h1' := h1.one hv1
  have := h1'.mu
  have hp1 := h1.tr.pre hp
  have hl : wp u (P.loop (switchStep r) ([], false)) s1 (fun cs s' =>
      (cs.filter isDefault).length ≤ 1 ∧
      Tr S 0 s1 s' (fun i r => Derives (Located S) env .cases i r (.ofList cs))) := by
    refine wp.loop (fun st s' => (st.1.filter isDefault).length ≤ (if st.2 = true then 1 else 0) ∧
      Tr S 0 s1 s' (fun i r => ∀ rest xs, Derives (Located S) env .cases r rest xs →
        Derives (Located S) env .cases i rest (.ofList (st.1 ++ xs.toList)))) ?_ ?_
    · refine ⟨Nat.zero_le _, (Tr.refl hp1.inv).imp ?_⟩
      rintro a b rfl rest xs h
      simpa [Ast.ofList_toList] using h
    · rintro ⟨cs, found⟩ s2 ⟨hf, h2⟩
      simp only at hf h2
      have := h2.mu
      have hp2 := h2.pre hp1
      unfold switchStep
      refine (wp.peek hp2.inv).bind fun t3 s3 h3 => ?_
      have := h3.tr.mu
      have hp3 := h3.tr.pre hp2
      obtain ⟨tl, hla⟩ := h3.la
      split
      · rename_i hv
        refine (wp.caseClause hr hp3 (by omega) (by omega) hla hv).bind fun c s4 h4 => ?_
        have := h4.mu
        have h34 := h3.tr.trans h4
        have hdef : isDefault c = false := by
          obtain ⟨i, r, _, ⟨rfl, _, rfl⟩, hd⟩ := h34.ex
          cases hd with
          | case => rfl
          | default hv' => rw [hv] at hv'; cases hv'
        refine ⟨⟨?_, (h2.trans h34).mono (Nat.zero_le _) ?_⟩, by omega⟩
        · simpa [List.filter_append, hdef] using hf
        · rintro a b ⟨_, hr, _, ⟨rfl, _⟩, hd⟩ rest xs hx
          simpa using hr _ _ (.casesCons hd hx)
      · rename_i hv
        cases found with
        | true =>
          refine (wp.reread hp3.inv hla hv rfl).bind fun _ _ _ => trivial
        | false =>
          refine (wp.defaultClause hr hp3 (by omega) hla hv).bind fun c s4 h4 => ?_
          have := h4.mu
          refine ⟨⟨?_, (h2.trans (h3.tr.trans h4)).mono (Nat.zero_le _) ?_⟩, by omega⟩
          · simp only [List.filter_append, List.length_append, if_true]
            simp only [Bool.false_eq_true, if_false] at hf
            have : (List.filter isDefault [c]).length ≤ 1 := by
              simp only [List.filter]; split <;> simp
            omega
          · rintro a b ⟨_, hr, _, ⟨rfl, _⟩, hd⟩ rest xs hx
            simpa using hr _ _ (.casesCons hd hx)
      · refine ⟨?_, (h2.trans h3.tr).mono (Nat.zero_le _) ?_⟩
        · refine Nat.le_trans hf ?_
          split <;> omega
        · rintro a b ⟨_, hr, rfl, _⟩
          simpa using hr _ .nil .casesNil
  refine hl.bind ?_
  rintro cs s2 ⟨hf, h2⟩
  refine (wp.expect h2.inv rfl).bind ?_
  rintro t3 s3 ⟨hv3, h3⟩
  refine ⟨hf, (h1'.trans (h2.trans h3.zero)).mono (Nat.le_add_right ..) ?_⟩
  rintro a b ⟨_, rfl, _, hd, rfl⟩
  exact ⟨_, _, _, rfl, hv1, hd, hv3⟩

theorem wp.switchStatement (hr : RecOk u S r na ni) (hp : Pre S env s) (ha : s.mu ≤ na)
    (hi : s.mu ≤ ni) {tl : List Token} (hla : s.la = t :: tl) (hv : t.value = .reserved .switch) :
    wp u (P.switchStatement r) s (Post S env .stmt 1 s) := by
  unfold P.switchStatement
  refine wp.spanAst hp.inv ?_
  refine (wp.reread hp.inv hla hv rfl).bind ?_
  rintro _ s1 ⟨rfl, h1⟩
  have h1' := h1.one hv
  have := h1'.mu
  have hp1 := h1.tr.pre hp
  refine (wp.parenExpression hr hp1 (by omega)).bind fun e s2 h2 => ?_
  have := h2.mu
  have hp2 := h2.pre hp1
  refine wp.get_bind (wp.modify_bind ?_)
  generalize hs3 : ({ s2 with ctx := { s2.ctx with switch := true } } : PState) = s3
  have hl : s3.lexer = s2.lexer := by rw [← hs3]
  have hmu : s3.mu = s2.mu := by simp [PState.mu, hl]
  have hp3 : Pre S env.switchBody s3 := ⟨hp2.inv.congr hl, by
    subst hs3
    obtain ⟨a1, a2, a3, a4, a5, a6, a7, a8⟩ := hp2.env
    exact ⟨a1, a2, a3, a4, rfl, a6, a7, a8⟩⟩
  refine (wp.switchCases hr hp3 (by omega) (by omega)).bind ?_
  rintro cs s4 ⟨hf, h4⟩
  refine wp.modify_bind (wp.pure ?_)
  have h4' := h4.inside (s := s2) (t' := { s4 with ctx := { s4.ctx with switch := s2.ctx.switch } })
    hl rfl (by
      subst hs3
      have hk := h4.frame
      refine ⟨hk.goal, hk.validate, ?_, hk.labels⟩
      show ({ s4.ctx with switch := s2.ctx.switch } : Ctx) = _
      rw [hk.ctx])
  refine (h1'.trans (h2.trans h4')).mono (by omega) ?_
  rintro a b ⟨_, rfl, _, ⟨t2, i1, t3, rfl, hv2, he, hv3⟩, t4, i2, t5, rfl, hv4, hd, hv5⟩ l hl
  exact .switchStmt hv hv2 he hv3 hv4 hd hv5 (by simpa [Ast.toList_ofList] using hf) hl

theorem wp.catchOpt (hr : RecOk u S r na ni) (hp : Pre S env s) (hi : s.mu ≤ ni) :
    wp u (P.catchOpt r) s (fun x s' => Tr S 0 s s' (fun i r => Derives (Located S) env .catchOpt i r x ∧
      (NextIs i (.reserved .catch) → x ≠ .none) ∧ (x = .none → i = r))) := by
  unfold P.catchOpt
  refine (wp.peek hp.inv).bind fun t1 s1 h1 => ?_
  have := h1.tr.mu
  have hp1 := h1.tr.pre hp
  obtain ⟨tl, hla⟩ := h1.la
  split
  · rename_i hv
    refine (wp.span (n := 0) (R := fun c i r => ∀ l, Located S i r l →
      Derives (Located S) env .catchOpt i r (.some (c.setLoc l))) hp1.inv ?_).bind ?_
    · refine (wp.reread hp1.inv hla hv rfl).bind ?_
      rintro _ s2 ⟨rfl, h2⟩
      have := h2.zero.mu
      have hp2 := h2.tr.pre hp1
      refine (wp.expect hp2.inv rfl).bind ?_
      rintro t3 s3 ⟨hv3, h3⟩
      have := h3.zero.mu
      refine (wp.patternPost (h3.tr.pre hp2)).bind fun p s4 h4 => ?_
      have := h4.mu
      refine (wp.expect h4.inv rfl).bind ?_
      rintro t5 s5 ⟨hv5, h5⟩
      have := h5.zero.mu
      refine (wp.block hr (h5.tr.pre (h4.pre (h3.tr.pre hp2))) (by omega)).bind fun b s6 h6 => ?_
      refine (h2.zero.trans (h3.zero.trans (h4.trans (h5.zero.trans h6)))).mono (Nat.zero_le _) ?_
      rintro a b ⟨_, rfl, _, rfl, _, hp, _, rfl, hb⟩ l hl
      exact .catchSome hv hv3 hp hv5 hb hl
    · rintro _ s2 ⟨c, l, rfl, -, h2⟩
      refine (h1.tr.trans h2).imp ?_
      rintro a b ⟨_, ⟨rfl, _⟩, hd, hl⟩
      exact ⟨hd l hl, fun _ h => (by cases h), fun h => (by cases h)⟩
  · rename_i hv
    refine h1.tr.imp ?_
    rintro a b ⟨rfl, r, rfl⟩
    refine ⟨.catchNone, ?_, fun _ => rfl⟩
    rintro ⟨_, _, h, h'⟩
    cases h
    exact absurd h' hv

theorem wp.finallyOpt (hr : RecOk u S r na ni) (hp : Pre S env s) (hi : s.mu ≤ ni) :
    wp u (P.finallyOpt r) s (fun x s' => Tr S 0 s s' (fun i r => Derives (Located S) env .finallyOpt i r x ∧
      (NextIs i (.reserved .finally) → x ≠ .none))) := by
  unfold P.finallyOpt
  refine (wp.peek hp.inv).bind fun t1 s1 h1 => ?_
  have := h1.tr.mu
  have hp1 := h1.tr.pre hp
  obtain ⟨tl, hla⟩ := h1.la
  split
  · rename_i hv
    refine (wp.reread hp1.inv hla hv rfl).bind ?_
    rintro _ s2 ⟨rfl, h2⟩
    have := h2.zero.mu
    refine (wp.block hr (h2.tr.pre hp1) (by omega)).bind fun b s3 h3 => ?_
    refine (h1.tr.trans (h2.zero.trans h3)).mono (Nat.zero_le _) ?_
    rintro a b ⟨_, ⟨rfl, _⟩, _, rfl, hb⟩
    exact ⟨.finallySome hv hb, fun _ h => by cases h⟩
  · rename_i hv
    refine h1.tr.imp ?_
    rintro a b ⟨rfl, r, rfl⟩
    refine ⟨.finallyNone ⟨_, _, rfl, hv⟩, ?_⟩
    rintro ⟨_, _, h, h'⟩
    cases h
    exact absurd h' hv

theorem wp.tryStatement (hr : RecOk u S r na ni) (hp : Pre S env s)
    (hi : s.mu ≤ ni) {tl : List Token} (hla : s.la = t :: tl) (hv : t.value = .reserved .try) :
    wp u (P.tryStatement r) s (Post S env .stmt 1 s) := by
  unfold P.tryStatement
  refine wp.spanAst hp.inv ?_
  refine (wp.reread hp.inv hla hv rfl).bind ?_
  rintro _ s1 ⟨rfl, h1⟩
  have h1' := h1.one hv
  have := h1'.mu
  have hp1 := h1.tr.pre hp
  refine (wp.block hr hp1 (by omega)).bind fun b s2 h2 => ?_
  have := h2.mu
  have hp2 := h2.pre hp1
  refine (wp.peek hp2.inv).bind fun t3 s3 h3 => ?_
  have := h3.tr.mu
  have hp3 := h3.tr.pre hp2
  have tail : t3.value = .reserved .catch ∨ t3.value = .reserved .finally →
      wp u (P.tryTail r b) s3 (fun x s' => Tr S 1 s s' (fun i r => ∀ l, Located S i r l →
        Derives (Located S) env .stmt i r (x.setLoc l))) := by
    intro hv3
    unfold P.tryTail
    refine (wp.catchOpt hr hp3 (by omega)).bind fun c s4 h4 => ?_
    have := h4.mu
    refine (wp.finallyOpt hr (h4.pre hp3) (by omega)).bind fun f s5 h5 => ?_
    refine (h1'.trans (h2.trans (h3.tr.trans (h4.trans h5)))).mono (by omega) ?_
    rintro a r ⟨_, rfl, _, hb, _, ⟨rfl, r', rfl⟩, _, ⟨hc, hc1, hc2⟩, hf, hf1⟩ l hl
    refine .tryStmt hv hb hc hf ?_ hl
    rcases hv3 with hv3 | hv3
    · exact .inl (hc1 ⟨_, _, rfl, hv3⟩)
    · by_cases hcn : c = .none
      · have := hc2 hcn
        subst this
        exact .inr (hf1 ⟨_, _, rfl, hv3⟩)
      · exact .inl hcn
  split
  · exact tail (.inl ‹_›)
  · exact tail (.inr ‹_›)
  · exact (wp.read hp3.inv).bind fun _ _ _ => trivial

end P

end Esprit
