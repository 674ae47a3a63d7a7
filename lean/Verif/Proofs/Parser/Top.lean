import Verif.Proofs.Parser.Knot

/-! The entry points. -/

set_option linter.unusedSectionVars false
set_option linter.unusedVariables false

namespace Esprit

open Lex ReaderSpec Grammar

namespace P

variable [Env] [LawfulEnv] {S : Str} {env : Scope} {u : Bool} {n m na ni : Nat}
  {s s1 s2 s' : PState} {t : Token} {α β : Type} {r : Rec}

theorem wp.moreModuleItems (hr : RecOk true S r na ni) (hp : Pre S env s) (hi : s.mu < ni) :
    wp true (P.moreModuleItems r []) s (fun xs s' => Post S env .modItems 0 s (.ofList xs) s') := by
  unfold P.moreModuleItems
  refine wp.loop (fun acc s1 => Tr S 0 s s1 (fun i r => ∀ rest xs, Derives (Located S) env .modItems r rest xs →
      Derives (Located S) env .modItems i rest (.ofList (acc ++ xs.toList)))) ?_ ?_
  · refine (Tr.refl hp.inv).imp ?_
    rintro a b rfl rest xs h
    simpa [Ast.ofList_toList] using h
  · intro acc s1 h1
    unfold moduleItemsStep
    refine (wp.peek h1.inv).bind fun t s2 h2 => ?_
    have hmu1 := h1.mu
    have hmu2 := h2.tr.mu
    split
    · rename_i hc
      refine (h1.trans h2.tr).mono (Nat.zero_le _) ?_
      rintro a b ⟨_, hr, rfl, r, rfl⟩
      simpa using hr _ .nil (.modItemsNil hc)
    · exact .inr (.inr ⟨rfl, rfl⟩)
    · exact .inr (.inr ⟨rfl, rfl⟩)
    · refine (hr.item true s2 env (h2.tr.pre (h1.pre hp)) (by omega)).bind fun x s3 h3 => ?_
      have := h3.mu
      refine ⟨(h1.trans (h2.tr.trans h3)).mono (Nat.zero_le _) ?_, by omega⟩
      rintro a b ⟨_, hr, _, ⟨rfl, _⟩, hd⟩ rest xs hx
      simpa using hr _ _ (.modItemsCons hd hx)

theorem wp.moduleItemsPanic {acc : List (Ast .modItem)} {Q : List (Ast .modItem) → PState → Prop}
    {tl : List Token} (hla : s.la = t :: tl)
    (hv : t.value = .reserved .import ∨ t.value = .reserved .export) :
    wp true (P.moreModuleItems r acc) s Q := by
  have : P.moreModuleItems r acc s = .panic .unimplemented := by
    unfold P.moreModuleItems P.loop
    have : moduleItemsStep r acc s = .panic .unimplemented := by
      have hpk : P.peek s = .ok (t, s) := by
        unfold P.peek P.lex Lexer.peekToken
        simp only [PState.la] at hla
        rw [hla]
      show P.bind P.peek _ s = _
      unfold P.bind
      rw [hpk]
      simp only
      rcases hv with hv | hv <;> rw [hv] <;> rfl
    simp only [P.loopN, this]
  unfold wp
  rw [this]
  exact .inr (.inr ⟨rfl, rfl⟩)

theorem wp.force (h : wp u (Pure.pure ()) s (fun _ s' => s'.lexer = s.lexer)) :
    wp u P.forceDeferredModuleValidation s (fun _ s' => s'.lexer = s.lexer) := by
  unfold P.forceDeferredModuleValidation
  refine wp.get_bind ?_
  refine wp.ite (fun _ => rfl) (fun _ => ?_)
  refine wp.bind (m := P.takeDeferred) (Q := fun _ s' => s'.lexer = s.lexer) rfl ?_
  intro d s' h
  split
  · trivial
  · exact h

/-- The items of a program that is not a module. -/
theorem wp.programItems (hr : RecOk true S r na ni) (hp : Pre S env s) (hi : s.mu < ni) :
    wp true (P.programItems r) s (fun x s' => ∃ xs, x = .script xs ∧
      Tr S 0 s s' (fun i r => Derives (Located S) env .items i r (.ofList xs) ∧ NextIs r .eof)) := by
  unfold P.programItems
  refine wp.loop (fun acc s1 => Tr S 0 s s1 (fun i r => ∀ rest xs, Derives (Located S) env .items r rest xs →
      Derives (Located S) env .items i rest (.ofList (acc ++ xs.toList)))) ?_ ?_
  · refine (Tr.refl hp.inv).imp ?_
    rintro a b rfl rest xs h
    simpa [Ast.ofList_toList] using h
  · intro acc s1 h1
    unfold programItemsStep
    refine (wp.peek h1.inv).bind fun t s2 h2 => ?_
    have hmu1 := h1.mu
    have hmu2 := h2.tr.mu
    obtain ⟨tl, hla⟩ := h2.la
    split
    · rename_i hc
      refine ⟨_, rfl, (h1.trans h2.tr).mono (Nat.zero_le _) ?_⟩
      rintro a b ⟨_, hr, rfl, r, rfl⟩
      refine ⟨?_, _, _, rfl, hc⟩
      simpa using hr _ .nil (.itemsNil (by rw [hc]; simp [followsItems]))
    · rename_i hc
      refine (wp.force rfl).bind fun _ s3 h3 => ?_
      have hla3 : s3.la = t :: tl := by simp only [PState.la, h3]; exact hla
      exact (wp.moduleItemsPanic hla3 (.inl hc)).bind (Q := fun _ _ => False) fun _ _ h => h.elim
    · rename_i hc
      refine (wp.force rfl).bind fun _ s3 h3 => ?_
      have hla3 : s3.la = t :: tl := by simp only [PState.la, h3]; exact hla
      exact (wp.moduleItemsPanic hla3 (.inr hc)).bind (Q := fun _ _ => False) fun _ _ h => h.elim
    · refine (hr.item true s2 env (h2.tr.pre (h1.pre hp)) (by omega)).bind fun x s3 h3 => ?_
      have := h3.mu
      refine ⟨(h1.trans (h2.tr.trans h3)).mono (Nat.zero_le _) ?_, by omega⟩
      rintro a b ⟨_, hr, _, ⟨rfl, _⟩, hd⟩ rest xs hx
      simpa using hr _ _ (.itemsCons hd hx)

end P

section Top

variable [Env] [LawfulEnv] {S : Str} {env : Scope} {u : Bool} {α : Type}

theorem Inv.fromChars (S : Str) : Inv S (.fromChars S) :=
  ⟨⟨0, true, Nat.zero_le _, Lexer.At.new S⟩, Nat.zero_le _, (fun t ht => by cases ht),
    (fun t ht => by cases ht), fun t ht => by cases ht⟩

/-- The tokens at the beginning of a run. -/
theorem Rem.fromChars {s : PState} (hs : s.lexer = Lexer.new S) {ts : List Token}
    (h : Rem S s ts) : ∃ ops k, Tokens S 0 true ops ts k := by
  obtain ⟨k, e, ops, new, k', h1, h2, rfl⟩ := h
  rw [hs] at h1
  have e1 : k = 0 := by
    have a := h1.posn.offset
    rw [(Lexer.At.new S).posn.offset] at a
    exact a.symm
  have e2 : e = true := h1.empty.symm.trans (Lexer.At.new S).empty
  subst e1 e2
  refine ⟨ops, k', ?_⟩
  simpa [PState.la, hs, Lexer.new] using h2

/-- The tokens at the end of a run. -/
theorem Rem.last {s : PState} (h : Inv S s) : Rem S s s.la := by
  obtain ⟨k, e, _, h1⟩ := h.at_
  exact ⟨k, e, [], [], k, h1, .nil, by simp⟩

theorem Tr.whole {s s' : PState} {n : Nat} {R : List Token → List Token → Prop}
    (hs : s.lexer = Lexer.new S) (h : Tr S n s s' R) :
    ∃ ops ts k rest, Tokens S 0 true ops ts k ∧ R ts rest := by
  obtain ⟨ts, c, h1, _, _, h2⟩ := h.back _ (Rem.last h.inv)
  obtain ⟨ops, k, h3⟩ := h1.fromChars hs
  exact ⟨ops, ts, k, _, h3, h2⟩

theorem mu_fromChars (S : Str) : (PState.fromChars S).mu = S.length := by
  simp [PState.mu, PState.fromChars, PState.new, Lexer.new, Reader.new]

theorem recOk_fuel (u : Bool) (S : Str) :
    RecOk u S (P.recOf (recFuel S)) (S.length + 1) (S.length + 1) :=
  P.recOk u S _ _ _ (by unfold recFuel; omega) (by unfold recFuel; omega)

theorem wp_assertGoal {s : PState} (h : s.goal = .unknown) {Q : Unit → PState → Prop}
    (hq : Q () s) : P.wp u P.assertGoalUnknown s Q := by
  unfold P.assertGoalUnknown
  refine P.wp.get_bind ?_
  simp only [h, if_true]
  exact hq

theorem wp_parseScript (strict : Bool) :
    P.wp false (P.parseScript (P.recOf (recFuel S)) strict) (.fromChars S) (fun x _ =>
      ∃ ops ts k rest, Tokens S 0 true ops ts k ∧
        Derives (Located S) (Scope.script strict) (.body .items) ts rest x) := by
  unfold P.parseScript
  refine P.wp.bind (wp_assertGoal rfl (Q := fun _ s => s = .fromChars S) rfl) ?_
  rintro _ _ rfl
  refine P.wp.modify_bind ?_
  refine (P.wp.scriptBody (env := Scope.script strict) (recOk_fuel false S)
    ⟨Inv.congr (s := .fromChars S) ?_ (Inv.fromChars S), ?_⟩ ?_ (Nat.zero_le _)).mono ?_
  · rfl
  · refine ⟨fun h => ⟨?_, rfl⟩, fun h => (by cases h), rfl, rfl, rfl, rfl, fun n t h => (by cases h), rfl⟩
    cases strict
    · cases h
    · rfl
  · have := mu_fromChars S
    simp only [PState.mu] at this ⊢
    omega
  · rintro x s' ⟨h, _⟩
    exact h.whole rfl

/-- The state in which `module` starts. -/
def moduleState (S : Str) : PState :=
  ⟨.module, true, [], Lexer.new S, ⟨.yes, false, false, false, true, []⟩⟩

theorem wp_parseModule :
    P.wp true (P.parseModule (P.recOf (recFuel S))) (.fromChars S) (fun x _ =>
      ∃ ops ts k rest, Tokens S 0 true ops ts k ∧
        Derives (Located S) Scope.moduleCode (.body .modItems) ts rest x) := by
  unfold P.parseModule
  refine P.wp.bind (wp_assertGoal rfl (Q := fun _ s => s = .fromChars S) rfl) ?_
  rintro _ _ rfl
  refine P.wp.modify_bind ?_
  change P.wp true _ (moduleState S) _
  generalize hs1 : moduleState S = s1
  have hl : s1.lexer = Lexer.new S := by rw [← hs1]; rfl
  have hla : s1.la.length ≤ 1 := by rw [PState.la, hl]; exact Nat.zero_le _
  have hp : Pre S Scope.moduleCode s1 := by
    subst hs1
    exact ⟨Inv.congr (s := .fromChars S) (s' := moduleState S) rfl (Inv.fromChars S),
      ⟨fun _ => ⟨rfl, rfl⟩, fun _ => ⟨rfl, rfl, rfl⟩, rfl, rfl, rfl, rfl, fun n t h => (by cases h), rfl⟩⟩
  have hmu : s1.mu = S.length := by
    rw [← mu_fromChars S]; simp only [PState.mu, hl]; rfl
  refine (P.wp.span (R := fun b i r => ∃ ds items, b = .body none ds items ∧
    Derives (Located S) Scope.moduleCode (.prologue .modItems) i r b) (n := 0) hp.inv ?_).mono ?_
  · refine (P.wp.bodyDirectives hp hla).bind fun ds s1 h1 => ?_
    have := h1.mu
    refine (P.wp.moreModuleItems (recOk_fuel true S) (h1.pre hp) (by omega)).bind fun xs s2 h2 => ?_
    refine (h1.trans h2).mono (Nat.zero_le _) ?_
    rintro a b ⟨_, ⟨hn, h1⟩, h2⟩
    exact ⟨_, _, rfl, h1 _ _ _ _ h2⟩
  · rintro b s' ⟨a, l, rfl, hl', h⟩
    obtain ⟨ops, ts, k, rest, h1, ⟨_, _, rfl, h2⟩, h3⟩ := h.whole hl
    exact ⟨ops, ts, k, rest, h1, .body h2 h3⟩

theorem wp_parseProgram :
    P.wp true (P.parseProgram (P.recOf (recFuel S))) (.fromChars S) (fun x _ =>
      ∃ checks tree, x = .ambiguous checks tree ∧
      ∃ ops ts k rest, Tokens S 0 true ops ts k ∧
        Derives (Located S) (Scope.script false) (.body .items) ts rest tree ∧ NextIs rest .eof) := by
  unfold P.parseProgram
  refine P.wp.bind (wp_assertGoal rfl (Q := fun _ s => s = .fromChars S) rfl) ?_
  rintro _ _ rfl
  generalize hs1 : PState.fromChars S = s1
  have hl : s1.lexer = Lexer.new S := by rw [← hs1]; rfl
  have hla : s1.la.length ≤ 1 := by rw [PState.la, hl]; exact Nat.zero_le _
  have hp : Pre S (Scope.script false) s1 := by
    subst hs1
    exact ⟨(Inv.fromChars S).congr rfl,
      ⟨fun h => (by cases h), fun h => (by cases h), rfl, rfl, rfl, rfl, fun n t h => (by cases h), rfl⟩⟩
  have hmu : s1.mu = S.length := by
    rw [← mu_fromChars S, ← hs1]
  refine (P.wp.span (R := fun x i r => ∃ checks ds items, x = .ambiguous checks (.body none ds items) ∧
    Derives (Located S) (Scope.script false) (.prologue .items) i r (.body none ds items) ∧ NextIs r .eof)
    (n := 0) hp.inv ?_).mono ?_
  · refine (P.wp.bodyDirectives hp hla).bind fun ds s1 h1 => ?_
    have := h1.mu
    refine (P.wp.programItems (recOk_fuel true S) (h1.pre hp) (by omega)).bind ?_
    rintro _ s2 ⟨xs, rfl, h2⟩
    have hk : Kept s2 { s2 with deferred := [] } := ⟨rfl, rfl, rfl, fun _ _ h => h⟩
    refine P.wp.bind (m := P.takeDeferred) (Q := fun _ s' => s' = { s2 with deferred := [] }) rfl ?_
    rintro checks _ rfl
    refine (h1.trans (h2.trans (Tr.same (s' := { s2 with deferred := [] }) h2.inv rfl hk))).mono (Nat.zero_le _) ?_
    rintro a b ⟨_, ⟨hn, h1⟩, _, ⟨h2, h3⟩, rfl⟩
    exact ⟨_, _, _, rfl, h1 _ _ _ _ h2, h3⟩
  · rintro b s' ⟨a, l, rfl, hl', h⟩
    obtain ⟨ops, ts, k, rest, h1, ⟨_, _, _, rfl, h2, h4⟩, h3⟩ := h.whole hl
    exact ⟨_, _, rfl, ops, ts, k, rest, h1, .body h2 h3, h4⟩

end Top

end Esprit
